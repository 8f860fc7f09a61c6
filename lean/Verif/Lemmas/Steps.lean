import Verif.Spec.Steps
import Verif.Props.Size

/-! # Counting the steps of a program -/

namespace Verif
open Spec

namespace Prog
variable {α β : Type}

/-- Every way through the program has at most `n` steps, and what it returns satisfies `Q`. -/
def AtMost : Prog α → Nat → (α → Prop) → Prop
  | .pure a, _, Q => Q a
  | .throw _, _, _ => True
  | .alloc _ k, n, Q => 0 < n ∧ ∀ r, AtMost (k r) (n - 1) Q
  | .read _ k, n, Q => 0 < n ∧ ∀ a, AtMost (k a) (n - 1) Q
  | .setItem _ _ _ p, n, Q => 0 < n ∧ AtMost p (n - 1) Q

/-- Every way through the program returns something after at least `n` steps, and what it returns
satisfies `Q`. -/
def AtLeast : Prog α → Nat → (α → Prop) → Prop
  | .pure a, n, Q => n = 0 ∧ Q a
  | .throw _, _, _ => False
  | .alloc _ k, n, Q => ∀ r, AtLeast (k r) (n - 1) Q
  | .read _ k, n, Q => ∀ a, AtLeast (k a) (n - 1) Q
  | .setItem _ _ _ p, n, Q => AtLeast p (n - 1) Q

theorem AtMost.mono {p : Prog α} {n m : Nat} {Q R : α → Prop} (h : AtMost p n Q) (hn : n ≤ m)
    (hQ : ∀ a, Q a → R a) : AtMost p m R := by
  induction p generalizing n m with
  | pure a => exact hQ a h
  | throw e => trivial
  | alloc a k ih => exact ⟨by have := h.1; omega, fun r => ih r (h.2 r) (by omega)⟩
  | read r k ih => exact ⟨by have := h.1; omega, fun r => ih r (h.2 r) (by omega)⟩
  | setItem r key v p ih => exact ⟨by have := h.1; omega, ih h.2 (by omega)⟩

theorem AtMost.le {p : Prog α} {n m : Nat} {Q : α → Prop} (h : AtMost p n Q) (hn : n ≤ m) :
    AtMost p m Q := h.mono hn fun _ h => h

theorem AtMost.bind {p : Prog α} {f : α → Prog β} {m n : Nat} {Q : α → Prop} {R : β → Prop}
    (h : AtMost p m Q) (hf : ∀ a, Q a → AtMost (f a) n R) : AtMost (p >>= f) (m + n) R := by
  show AtMost (p.bind f) (m + n) R
  induction p generalizing m with
  | pure a => exact (hf a h).le (by omega)
  | throw e => trivial
  | alloc a k ih =>
    refine ⟨by have := h.1; omega, fun r => ?_⟩
    have := ih r (h.2 r)
    rw [show m - 1 + n = m + n - 1 by have := h.1; omega] at this
    exact this
  | read a k ih =>
    refine ⟨by have := h.1; omega, fun r => ?_⟩
    have := ih r (h.2 r)
    rw [show m - 1 + n = m + n - 1 by have := h.1; omega] at this
    exact this
  | setItem r key v p ih =>
    refine ⟨by have := h.1; omega, ?_⟩
    have := ih h.2
    rw [show m - 1 + n = m + n - 1 by have := h.1; omega] at this
    exact this

theorem AtMost.map {p : Prog α} {f : α → β} {m : Nat} (h : AtMost p m fun _ => True) :
    AtMost (p >>= fun a => Pure.pure (f a)) m fun _ => True :=
  AtMost.bind (n := 0) h fun _ _ => trivial

theorem AtLeast.mono {p : Prog α} {n m : Nat} {Q R : α → Prop} (h : AtLeast p n Q) (hn : m ≤ n)
    (hQ : ∀ a, Q a → R a) : AtLeast p m R := by
  induction p generalizing n m with
  | pure a => exact ⟨by have := h.1; omega, hQ a h.2⟩
  | throw e => exact h
  | alloc a k ih => exact fun r => ih r (h r) (by omega)
  | read r k ih => exact fun r => ih r (h r) (by omega)
  | setItem r key v p ih => exact ih (n := n - 1) h (by omega)

theorem AtLeast.bind {p : Prog α} {f : α → Prog β} {m n : Nat} {Q : α → Prop} {R : β → Prop}
    (h : AtLeast p m Q) (hf : ∀ a, Q a → AtLeast (f a) n R) : AtLeast (p >>= f) (m + n) R := by
  show AtLeast (p.bind f) (m + n) R
  induction p generalizing m with
  | pure a => rw [h.1, Nat.zero_add]; exact hf a h.2
  | throw e => exact h
  | alloc a k ih => exact fun r => (ih r (h r)).mono (by omega) fun _ h => h
  | read a k ih => exact fun r => (ih r (h r)).mono (by omega) fun _ h => h
  | setItem r key v p ih => exact (ih (m := m - 1) h).mono (by omega) fun _ h => h

end Prog
open Prog

/-! ## Schedules -/

theorem Spec.Run.atMost {is : List Nat} {c c' : Config} (h : Run is c c') :
    ∀ {i n : Nat} {p : Prog Str}, c.threads[i]? = some p → AtMost p n (fun _ => True) →
    ∃ p', c'.threads[i]? = some p' ∧ is.count i ≤ n ∧ AtMost p' (n - is.count i) fun _ => True := by
  induction h with
  | nil => exact fun hp h => ⟨_, hp, by simp, by simpa using h⟩
  | @cons j is c c1 c' hs _ ih =>
    intro i n p hp h
    obtain ⟨q, q', h', hq, hst, rfl⟩ := hs
    by_cases hij : j = i
    · subst hij
      rw [hp] at hq
      cases hq
      have h1 : 0 < n ∧ AtMost q' (n - 1) fun _ => True := by
        cases p with
        | pure a => cases hst
        | throw e => cases hst
        | alloc a k => cases hst; exact ⟨h.1, h.2 _⟩
        | read a k => cases hst; exact ⟨h.1, h.2 _⟩
        | setItem r key v p => cases hst; exact h
      have hlt : j < c.threads.length := (List.getElem?_eq_some_iff.1 hp).1
      obtain ⟨p', e1, e2, e3⟩ := ih (i := j) (p := q') (by simp [hlt]) h1.2
      rw [List.count_cons_self]
      refine ⟨p', e1, by omega, ?_⟩
      rw [show n - (is.count j + 1) = n - 1 - is.count j by omega]
      exact e3
    · rw [List.count_cons_of_ne hij]
      exact ih (by rw [List.getElem?_set_ne hij]; exact hp) h

theorem Spec.Run.atLeast {is : List Nat} {c c' : Config} (h : Run is c c') :
    ∀ {i n : Nat} {p : Prog Str}, c.threads[i]? = some p → AtLeast p n (fun _ => True) →
    ∃ p', c'.threads[i]? = some p' ∧ AtLeast p' (n - is.count i) fun _ => True := by
  induction h with
  | nil => exact fun hp h => ⟨_, hp, by simpa using h⟩
  | @cons j is c c1 c' hs _ ih =>
    intro i n p hp h
    obtain ⟨q, q', h', hq, hst, rfl⟩ := hs
    by_cases hij : j = i
    · subst hij
      rw [hp] at hq
      cases hq
      have h1 : AtLeast q' (n - 1) fun _ => True := by
        cases p with
        | pure a => cases hst
        | throw e => cases hst
        | alloc a k => cases hst; exact h _
        | read a k => cases hst; exact h _
        | setItem r key v p => cases hst; exact h
      have hlt : j < c.threads.length := (List.getElem?_eq_some_iff.1 hp).1
      obtain ⟨p', e1, e3⟩ := ih (i := j) (p := q') (by simp [hlt]) h1
      rw [List.count_cons_self]
      refine ⟨p', e1, ?_⟩
      rw [show n - (is.count j + 1) = n - 1 - is.count j by omega]
      exact e3
    · rw [List.count_cons_of_ne hij]
      exact ih (by rw [List.getElem?_set_ne hij]; exact hp) h

/-! ## The cost of an element -/

mutual
/-- Tables in an element. -/
def Elem.tabs : Elem → Nat
  | .mk n _ _ cs => (if n = c!"mtable" then 1 else 0) + Elem.tabsL cs
def Elem.tabsL : List Elem → Nat
  | [] => 0
  | e :: es => e.tabs + Elem.tabsL es
end

mutual
/-- Enough steps for rendering an element. -/
def Elem.cost : Elem → Nat
  | .mk n v _ cs => 3 + v.length + (if n = c!"mtable" then Elem.tabsL cs else 0) + Elem.costL cs
def Elem.costL : List Elem → Nat
  | [] => 0
  | e :: es => e.cost + Elem.costL es
end

mutual
theorem addFlag1_atMost (flag : Str) (e : Elem) :
    AtMost (Th.addFlag1 c!"mtable" flag e) e.tabs fun _ => True := by
  obtain ⟨n, v, r, cs⟩ := e
  rw [Th.addFlag1, Elem.tabs]
  split <;> rename_i h
  · rw [if_pos (by simpa using h)]
    exact AtMost.bind (Q := fun _ => True) (m := 1) ⟨by omega, trivial⟩ fun _ _ => addFlags_atMost flag cs
  · exact (addFlags_atMost flag cs).le (by omega)
theorem addFlags_atMost (flag : Str) (es : List Elem) :
    AtMost (Th.addFlagRecursiveIfName c!"mtable" flag es) (Elem.tabsL es) fun _ => True := by
  match es with
  | [] => rw [Th.addFlagRecursiveIfName]; trivial
  | e :: es =>
    rw [Th.addFlagRecursiveIfName, Elem.tabsL]
    exact (addFlag1_atMost flag e).bind fun _ _ => addFlags_atMost flag es
end

/-- Bounds for the children. -/
inductive KidsAtMost : List Th.Kid → Nat → Prop
  | nil : KidsAtMost [] 0
  | cons {k ks a b} : AtMost k.2 a (fun _ => True) → KidsAtMost ks b → KidsAtMost (k :: ks) (a + b)

theorem KidsAtMost.run {ks : List Th.Kid} {n : Nat} (h : KidsAtMost ks n) :
    AtMost (Th.runKids ks) n fun _ => True := by
  induction h with
  | nil => trivial
  | cons h _ ih => exact h.bind fun _ _ => ih.map

theorem attributes_atMost (r : Nat) : AtMost (Th.attributes r) 1 fun _ => True :=
  ⟨by omega, fun _ => trivial⟩

theorem mi_atMost (v : Str) (r : Nat) : AtMost (Th.miConvert v r) 3 fun _ => True := by
  unfold Th.miConvert
  dsimp only
  split
  · trivial
  · split
    · trivial
    · refine AtMost.map ?_
      unfold Th.getMathVariant
      refine AtMost.bind (m := 1) (n := 2) (attributes_atMost r) fun a _ => ?_
      split
      · trivial
      · refine AtMost.bind (m := 1) (n := 1) (attributes_atMost r) fun a _ => ?_
        split
        · trivial
        · refine AtMost.bind (m := 1) (n := 0) (attributes_atMost r) fun a _ => ?_
          split <;> trivial

theorem merge_length (v : Str) : ∀ acc, (v.foldl mergeStep acc).length ≤ acc.length + v.length := by
  induction v with
  | nil => intro acc; simp
  | cons c v ih =>
    intro acc
    have := ih (mergeStep acc c)
    have h2 : (mergeStep acc c).length ≤ acc.length + 1 := by
      unfold mergeStep
      split
      · split <;> simp
      · simp
    rw [List.foldl_cons, List.length_cons]
    omega

theorem mtext_atMost (v : Str) (r : Nat) : AtMost (Th.mtextConvert v r) v.length fun _ => True := by
  have h : ∀ ps, AtMost (Th.mtextRuns r ps) ps.length fun _ => True := by
    intro ps
    induction ps with
    | nil => trivial
    | cons p ps ih =>
      rw [Th.mtextRuns, List.length_cons, Nat.add_comm]
      refine AtMost.bind (Q := fun _ => True) ?_ fun _ _ => ih.map
      unfold Th.mtextRun
      split
      · exact (attributes_atMost r).map
      · trivial
  unfold Th.mtextConvert
  refine AtMost.map ((h _).le ?_)
  have := merge_length v []
  simpa using this

theorem base_atMost {k : Th.Kid} {n : Nat} (h : AtMost k.2 n fun _ => True) :
    AtMost (Th.handleBaseChild k) n fun _ => True := by
  refine AtMost.bind (n := 0) h fun _ _ => ?_
  split <;> trivial

theorem script_atMost {k : Th.Kid} {n : Nat} (h : AtMost k.2 n fun _ => True) :
    AtMost (Th.handleScriptChild k) n fun _ => True := h.map

theorem pair_atMost {p : Str} {k k' : Th.Kid} {m n : Nat} (h : AtMost k.2 m fun _ => True)
    (h' : AtMost k'.2 n fun _ => True) : AtMost (Th.scriptPair p k k') (m + n) fun _ => True :=
  h.bind fun _ _ => h'.map

/-- The steps of constructing a converter and of running it. -/
theorem construct_atMost (name v : Str) (r : Nat) (cs : List Elem) (kids : List Th.Kid) (n : Nat)
    (hk : KidsAtMost kids n) : ∃ a b, a + b ≤ 3 + v.length +
      (if name = c!"mtable" then Elem.tabsL cs else 0) + n ∧
      AtMost (Th.construct (classify name) name v r cs kids) a fun k => AtMost k b fun _ => True := by
  generalize hc : classify name = kind
  have simple : ∀ {p : Prog Str}, AtMost p (3 + n) (fun _ => True) → ∃ a b, a + b ≤ 3 + v.length +
      (if name = c!"mtable" then Elem.tabsL cs else 0) + n ∧
      AtMost (Pure.pure p : Prog (Prog Str)) a fun k => AtMost k b fun _ => True :=
    fun h => ⟨0, 3 + n, by omega, h⟩
  cases kind with
  | math => exact simple (AtMost.map (hk.run.le (by omega)))
  | mi => exact simple ((mi_atMost v r).le (by omega))
  | mo => exact ⟨0, 0, by omega, trivial⟩
  | mn => exact ⟨0, 0, by omega, trivial⟩
  | msqrt => exact simple (AtMost.map (hk.run.le (by omega)))
  | mfenced =>
    refine ⟨3, n, by omega, ?_⟩
    refine AtMost.bind (m := 1) (n := 2) (attributes_atMost r) fun _ _ => ?_
    refine AtMost.bind (m := 1) (n := 1) (attributes_atMost r) fun _ _ => ?_
    refine AtMost.bind (m := 1) (n := 0) (attributes_atMost r) fun _ _ => ?_
    refine AtMost.bind (n := 0) hk.run fun _ _ => ?_
    split <;> trivial
  | mfrac =>
    refine simple ?_
    unfold Th.mfracConvert
    split
    · rcases hk with _ | @⟨_, _, a, _, h0, _ | @⟨_, _, b, _, h1, _ | _⟩⟩
      refine AtMost.le (n := a + (b + 1)) ?_ (by omega)
      refine h0.bind fun _ _ => h1.bind fun _ _ => ?_
      refine AtMost.bind (m := 1) (n := 0) (attributes_atMost r) fun _ _ => ?_
      split <;> trivial
    · trivial
  | mroot =>
    refine simple ?_
    unfold Th.mrootConvert
    split
    · rcases hk with _ | @⟨_, _, a, _, h0, _ | @⟨_, _, b, _, h1, _ | _⟩⟩
      exact AtMost.le (h0.bind fun _ _ => h1.map) (by omega)
    · trivial
  | maction =>
    refine simple ?_
    unfold Th.mactionConvert
    refine AtMost.le (n := 1 + n) (AtMost.bind (attributes_atMost r) fun a _ => ?_) (by omega)
    dsimp only
    split
    · exact hk.run.map
    · cases hk with
      | nil => trivial
      | cons h _ => exact h.le (by omega)
  | menclose =>
    refine ⟨1, n, by omega, ?_⟩
    exact AtMost.bind (m := 1) (n := 0) (attributes_atMost r) fun _ _ => hk.run.map
  | merror => exact simple (AtMost.map (hk.run.le (by omega)))
  | void => exact ⟨0, 0, by omega, trivial⟩
  | msup =>
    refine simple ?_
    unfold Th.msupConvert
    split
    · rcases hk with _ | @⟨_, _, a, _, h0, _ | @⟨_, _, b, _, h1, _ | _⟩⟩
      exact AtMost.le ((base_atMost h0).bind fun _ _ => (script_atMost h1).map) (by omega)
    · trivial
  | msub =>
    refine simple ?_
    unfold Th.msubConvert
    split
    · rcases hk with _ | @⟨_, _, a, _, h0, _ | @⟨_, _, b, _, h1, _ | _⟩⟩
      exact AtMost.le ((base_atMost h0).bind fun _ _ => (script_atMost h1).map) (by omega)
    · trivial
  | msubsup =>
    refine simple ?_
    unfold Th.msubsupConvert
    split
    · rcases hk with _ | @⟨_, _, a, _, h0, _ | @⟨_, _, b, _, h1, _ | @⟨_, _, c, _, h2, _ | _⟩⟩⟩
      exact AtMost.le ((base_atMost h0).bind fun _ _ => (script_atMost h1).bind fun _ _ =>
        (script_atMost h2).map) (by omega)
    · trivial
  | mmultiscripts =>
    refine simple ?_
    unfold Th.mmultiscriptsConvert
    split
    · rename_i b k1 k2 ks
      rcases hk with _ | @⟨_, _, a0, _, h0, _ | @⟨_, _, a1, _, h1, _ | @⟨_, _, a2, m, h2, hk⟩⟩⟩
      have hpre : ∃ x y, x + y ≤ a1 + (a2 + m) ∧
          AtMost (Th.prescriptLatex (b :: k1 :: k2 :: ks)) x (fun _ => True) ∧
          AtMost (Th.postscriptLatex (b :: k1 :: k2 :: ks)) y (fun _ => True) := by
        unfold Th.prescriptLatex Th.postscriptLatex
        by_cases hp : Th.isPrescripts k1 = true
        · rcases hk with _ | @⟨k3, ks, a3, m, h3, hk⟩
          · exact ⟨0, 0, by omega, by trivial, by simp only [hp, if_true]; trivial⟩
          · refine ⟨a2 + a3, 0, by omega, ?_, by simp only [hp, if_true]; trivial⟩
            simp only [hp, if_true]
            exact pair_atMost h2 h3
        · rcases hk with _ | @⟨k3, ks, a3, m, h3, hk⟩
          · refine ⟨0, a1 + a2, by omega, by trivial, ?_⟩
            simp only [hp]
            exact pair_atMost h1 h2
          · have hpost : AtMost (Th.scriptPair c!"_" k1 k2) (a1 + a2) fun _ => True := pair_atMost h1 h2
            rcases hk with _ | @⟨k4, _, a4, _, h4, _ | @⟨k5, ks, a5, m, h5, hk⟩⟩
            · refine ⟨0, a1 + a2, by omega, ?_, by simp only [hp]; exact hpost⟩
              simp only [hp]; trivial
            · refine ⟨0, a1 + a2, by omega, ?_, by simp only [hp]; exact hpost⟩
              simp only [hp]; trivial
            · refine ⟨a4 + a5, a1 + a2, by omega, ?_, by simp only [hp]; exact hpost⟩
              simp only [hp]
              by_cases hp3 : Th.isPrescripts k3 = true
              · simp only [hp3, if_true]; exact pair_atMost h4 h5
              · simp only [hp3]; trivial
      obtain ⟨x, y, hxy, hx, hy⟩ := hpre
      exact AtMost.le (h0.bind fun _ _ => hx.bind fun _ _ => hy.map) (by omega)
    · trivial
  | mtext => exact ⟨0, v.length, by omega, mtext_atMost v r⟩
  | munderover =>
    refine simple ?_
    unfold Th.munderoverConvert
    split
    · rcases hk with _ | @⟨_, _, a, _, h0, _ | @⟨_, _, b, _, h1, _ | @⟨_, _, c, _, h2, _ | _⟩⟩⟩
      exact AtMost.le (h0.bind fun _ _ => h1.bind fun _ _ => h2.map) (by omega)
    · trivial
  | mtable =>
    rw [if_pos ((classify_mtable name).1 hc)]
    refine ⟨Elem.tabsL cs, n + 1, by omega, ?_⟩
    refine AtMost.bind (n := 0) (addFlags_atMost _ cs) fun _ _ => ?_
    refine AtMost.bind hk.run fun _ _ => ?_
    refine AtMost.bind (m := 1) (n := 0) (attributes_atMost r) fun _ _ => ?_
    split <;> trivial
  | mtr => exact simple (AtMost.map (hk.run.le (by omega)))
  | underOver =>
    refine simple ?_
    unfold Th.underOverConvert
    split
    · rcases hk with _ | @⟨_, _, a, _, h0, _ | @⟨_, _, b, _, h1, _ | _⟩⟩
      exact AtMost.le (h0.bind fun _ _ => h1.map) (by omega)
    · trivial
  | spacing => exact simple (AtMost.map (hk.run.le (by omega)))

mutual
theorem toConv_atMost (e : Elem) : ∃ a b, a + b ≤ e.cost ∧
    AtMost (Th.toConv e) a fun k => AtMost k b fun _ => True := by
  obtain ⟨n, v, r, cs⟩ := e
  rw [Th.toConv, Elem.cost]
  exact construct_atMost n v r cs _ _ (kids_atMost cs)
theorem kids_atMost (es : List Elem) : KidsAtMost (Th.kidsOf es) (Elem.costL es) := by
  match es with
  | [] => rw [Th.kidsOf, Elem.costL]; exact .nil
  | e :: es =>
    rw [Th.kidsOf, Elem.costL]
    obtain ⟨a, b, hab, h⟩ := toConv_atMost e
    exact .cons ((h.bind fun _ hk => hk).le hab) (kids_atMost es)
end

theorem convertElem_atMost (e : Elem) : AtMost (Th.convertElem e) e.cost fun _ => True := by
  obtain ⟨a, b, hab, h⟩ := toConv_atMost e
  exact (h.bind fun _ hk => hk).le hab

theorem renderAll_atMost (es : List Elem) : AtMost (Th.renderAll es) (Elem.costL es) fun _ => True := by
  have : ∃ a b, a + b ≤ Elem.costL es ∧
      AtMost (Th.constructAll es) a fun ks => AtMost (Th.convertAll ks) b fun _ => True := by
    induction es with
    | nil => exact ⟨0, 0, by simp [Elem.costL], by trivial⟩
    | cons e es ih =>
      obtain ⟨a, b, hab, h⟩ := toConv_atMost e
      obtain ⟨a', b', hab', h'⟩ := ih
      refine ⟨a + a', b + b', by rw [Elem.costL]; omega, ?_⟩
      rw [Th.constructAll]
      refine h.bind fun k hk => ?_
      refine AtMost.bind (n := 0) h' fun ks hks => ?_
      show AtMost (Th.convertAll (k :: ks)) _ _
      rw [Th.convertAll]
      exact hk.bind fun _ _ => hks.map
  obtain ⟨a, b, hab, h⟩ := this
  exact (h.bind fun _ hk => hk.map).le hab

/-! ## Building -/

mutual
/-- The element without its references. -/
def Elem.bare : Elem → Elem
  | .mk n v _ cs => .mk n v 0 (Elem.bareL cs)
def Elem.bareL : List Elem → List Elem
  | [] => []
  | e :: es => e.bare :: Elem.bareL es
end

mutual
theorem Elem.bare_tabs (e : Elem) : e.bare.tabs = e.tabs := by
  obtain ⟨n, v, r, cs⟩ := e
  rw [Elem.bare, Elem.tabs, Elem.tabs, Elem.bareL_tabs cs]
theorem Elem.bareL_tabs (es : List Elem) : Elem.tabsL (Elem.bareL es) = Elem.tabsL es := by
  match es with
  | [] => rfl
  | e :: es => rw [Elem.bareL, Elem.tabsL, Elem.tabsL, Elem.bare_tabs e, Elem.bareL_tabs es]
end

mutual
theorem Elem.bare_cost (e : Elem) : e.bare.cost = e.cost := by
  obtain ⟨n, v, r, cs⟩ := e
  rw [Elem.bare, Elem.cost, Elem.cost, Elem.bareL_cost cs, Elem.bareL_tabs cs]
theorem Elem.bareL_cost (es : List Elem) : Elem.costL (Elem.bareL es) = Elem.costL es := by
  match es with
  | [] => rfl
  | e :: es => rw [Elem.bareL, Elem.costL, Elem.costL, Elem.bare_cost e, Elem.bareL_cost es]
end

mutual
/-- The element built for a node, without references. -/
def bareOf : Node → Option Elem
  | .elem tag _ cs => some (.mk tag (strip (elementValue cs)) 0 (bareOfL cs))
  | _ => none
def bareOfL : List Node → List Elem
  | [] => []
  | n :: ns => match bareOf n with
    | some e => e :: bareOfL ns
    | none => bareOfL ns
end

mutual
theorem buildElem_atMost (n : Node) : AtMost (Th.buildElem n) (elementsOf n).length
    fun e => e.map Elem.bare = bareOf n := by
  match n with
  | .text _ => rw [Th.buildElem, bareOf] <;> first | exact rfl | simp
  | .cdata _ => rw [Th.buildElem, bareOf] <;> first | exact rfl | simp
  | .comment _ => rw [Th.buildElem, bareOf] <;> first | exact rfl | simp
  | .pi _ _ => rw [Th.buildElem, bareOf] <;> first | exact rfl | simp
  | .elem tag attrs cs =>
    rw [Th.buildElem, elementsOf, List.length_cons, bareOf]
    refine ⟨by omega, fun r => ?_⟩
    rw [Nat.add_sub_cancel]
    refine AtMost.bind (n := 0) (buildElems_atMost cs) fun es hes => ?_
    show Option.map Elem.bare (some _) = _
    rw [Option.map_some, Elem.bare, hes]
theorem buildElems_atMost (ns : List Node) : AtMost (Th.buildElems ns) (elements ns).length
    fun es => Elem.bareL es = bareOfL ns := by
  match ns with
  | [] => rw [Th.buildElems, bareOfL]; exact rfl
  | n :: ns =>
    rw [Th.buildElems, elements, List.length_append, bareOfL]
    refine (buildElem_atMost n).bind fun e he => ?_
    refine AtMost.bind (n := 0) (buildElems_atMost ns) fun es hes => ?_
    rw [← he]
    cases e with
    | none => exact hes
    | some e =>
      show Elem.bareL (e :: es) = _
      rw [Elem.bareL, hes]
      rfl
end

/-! ## The bound in terms of the node -/

/-- Pairs of tables in a list of nodes. -/
def tablePairsL (ns : List Node) : Nat :=
  (((elements ns).filter isTable).map fun t => (tablesInside t).length).sum

theorem tablePairs_elem (tag : Str) (A : List (Str × Str)) (cs : List Node) :
    tablePairs (.elem tag A cs) =
      (if tag = c!"mtable" then ((elements cs).filter isTable).length else 0) + tablePairsL cs := by
  unfold tablePairs tablesOf tablePairsL
  rw [elementsOf, List.filter_cons, isTable]
  by_cases h : tag = c!"mtable"
  · simp [h, tablesInside]
  · simp [h]

theorem tablePairsL_cons (n : Node) (ns : List Node) :
    tablePairsL (n :: ns) = tablePairs n + tablePairsL ns := by
  unfold tablePairs tablesOf tablePairsL
  rw [elements, List.filter_append, List.map_append, List.sum_append]

theorem bareOf_none {n : Node} (h : bareOf n = none) : n.isElem = false := by
  cases n with
  | elem tag A cs => rw [bareOf] at h; cases h
  | _ => rfl

theorem elementsOf_none {n : Node} (h : n.isElem = false) : elementsOf n = [] := by
  cases n with
  | elem tag A cs => cases h
  | _ => rfl

mutual
theorem bareOf_tabs (n : Node) (e : Elem) (h : bareOf n = some e) :
    e.tabs = ((elementsOf n).filter isTable).length := by
  match n with
  | .text _ => exact absurd h (by simp [bareOf])
  | .cdata _ => exact absurd h (by simp [bareOf])
  | .comment _ => exact absurd h (by simp [bareOf])
  | .pi _ _ => exact absurd h (by simp [bareOf])
  | .elem tag A cs =>
    rw [bareOf] at h
    cases h
    rw [Elem.tabs, bareOfL_tabs cs, elementsOf, List.filter_cons, isTable]
    by_cases h : tag = c!"mtable"
    · simp [h]; omega
    · simp [h]
theorem bareOfL_tabs (ns : List Node) :
    Elem.tabsL (bareOfL ns) = ((elements ns).filter isTable).length := by
  match ns with
  | [] => rw [bareOfL]; rfl
  | n :: ns =>
    rw [bareOfL, elements, List.filter_append, List.length_append]
    cases e : bareOf n with
    | none => rw [elementsOf_none (bareOf_none e)]; simp [bareOfL_tabs ns]
    | some e' => dsimp only; rw [Elem.tabsL, bareOf_tabs n e' e, bareOfL_tabs ns]
end

theorem elementValue_length (cs : List Node) : (strip (elementValue cs)).length ≤ sizes cs := by
  refine Nat.le_trans (length_strip _) ?_
  unfold elementValue
  split
  · exact Nat.zero_le _
  · split
    · exact Nat.zero_le _
    · rename_i c cs _
      rw [sizes]
      have : c.nodeValue.length ≤ size c := by
        cases c <;> simp only [Node.nodeValue, size, List.length_nil] <;> omega
      omega

theorem bareOfL_nil {cs : List Node} (h : hasElementChild cs = false) :
    bareOfL cs = [] ∧ elements cs = [] := by
  induction cs with
  | nil => exact ⟨by rw [bareOfL], by rw [elements]⟩
  | cons n ns ih =>
    have h' : n.isElem = false ∧ hasElementChild ns = false := by
      simpa [hasElementChild] using h
    rw [bareOfL, elements, elementsOf_none h'.1, (ih h'.2).2, (ih h'.2).1]
    cases n with
    | elem => cases h'.1
    | _ => rw [bareOf] <;> simp

mutual
theorem bareOf_cost (n : Node) (e : Elem) (h : bareOf n = some e) :
    e.cost + (elementsOf n).length ≤ stepsFor n := by
  match n with
  | .text _ => exact absurd h (by simp [bareOf])
  | .cdata _ => exact absurd h (by simp [bareOf])
  | .comment _ => exact absurd h (by simp [bareOf])
  | .pi _ _ => exact absurd h (by simp [bareOf])
  | .elem tag A cs =>
    rw [bareOf] at h
    cases h
    have ih := bareOfL_cost cs
    rw [Elem.cost, bareOfL_tabs cs, stepsFor, tablePairs_elem, elementsOf, List.length_cons, size]
    by_cases hc : hasElementChild cs = true
    · rw [show elementValue cs = [] by unfold elementValue; rw [if_pos hc]]
      have : (strip []).length = 0 := rfl
      omega
    · have hb := bareOfL_nil (by simpa using hc)
      rw [hb.1, hb.2] at ih ⊢
      have hv := elementValue_length cs
      simp only [Elem.costL, List.length_nil] at ih ⊢
      omega
theorem bareOfL_cost (ns : List Node) :
    Elem.costL (bareOfL ns) + (elements ns).length ≤ 4 * sizes ns + tablePairsL ns := by
  match ns with
  | [] => rw [bareOfL]; exact Nat.zero_le _
  | n :: ns =>
    have ih := bareOfL_cost ns
    rw [bareOfL, elements, List.length_append, sizes, tablePairsL_cons]
    cases e : bareOf n with
    | none => rw [elementsOf_none (bareOf_none e)]; simp only [List.length_nil]; omega
    | some e' =>
      have := bareOf_cost n e' e
      unfold stepsFor at this
      dsimp only
      rw [Elem.costL]
      omega
end

theorem renderNodes_atMost (ns : List Node) :
    AtMost (Th.renderNodes ns) ((ns.map stepsFor).sum) fun _ => True := by
  have h : AtMost (Th.renderNodes ns) ((elements ns).length + Elem.costL (bareOfL ns)) fun _ => True := by
    refine (buildElems_atMost ns).bind fun es hes => ?_
    rw [← hes, Elem.bareL_cost]
    exact renderAll_atMost es
  refine h.le ?_
  clear h
  induction ns with
  | nil => rw [bareOfL]; exact Nat.zero_le _
  | cons n ns ih =>
    rw [bareOfL, elements, List.length_append, List.map_cons, List.sum_cons]
    cases e : bareOf n with
    | none => rw [elementsOf_none (bareOf_none e)]; simp only [List.length_nil]; omega
    | some e' =>
      have := bareOf_cost n e' e
      dsimp only
      rw [Elem.costL]
      omega

/-! ## Nested tables -/

theorem nested_inv {k : Nat} {e : Elem} (h : bareOf (tableTower (k + 1)) = some e.bare) :
    ∃ v1 v2 v3 r1 r2 r3 e', e = .mk c!"mtable" v1 r1 [.mk c!"mtr" v2 r2 [.mk c!"mtd" v3 r3 [e']]] ∧
      bareOf (tableTower k) = some e'.bare := by
  have hb : ∃ b, bareOf (tableTower k) = some b := by
    cases k with
    | zero => exact ⟨_, by rw [tableTower, bareOf]⟩
    | succ k => exact ⟨_, by rw [tableTower, bareOf]⟩
  obtain ⟨b, hb⟩ := hb
  simp only [tableTower, bareOf, bareOfL, hb] at h
  obtain ⟨n1, v1, r1, c1⟩ := e
  simp only [Elem.bare, Option.some.injEq, Elem.mk.injEq] at h
  obtain ⟨rfl, _, _, h⟩ := h
  rcases c1 with _ | ⟨⟨n2, v2, r2, c2⟩, _ | ⟨_, _⟩⟩ <;> simp only [Elem.bareL, Elem.bare, List.cons.injEq,
    Elem.mk.injEq, reduceCtorEq, and_false, and_true] at h
  obtain ⟨rfl, _, _, h⟩ := h
  rcases c2 with _ | ⟨⟨n3, v3, r3, c3⟩, _ | ⟨_, _⟩⟩ <;> simp only [Elem.bareL, Elem.bare, List.cons.injEq,
    Elem.mk.injEq, reduceCtorEq, and_false, and_true] at h
  obtain ⟨rfl, _, _, h⟩ := h
  rcases c3 with _ | ⟨e', _ | ⟨_, _⟩⟩ <;> simp only [Elem.bareL, List.cons.injEq,
    reduceCtorEq, and_false, and_true] at h
  subst h
  exact ⟨v1, v2, v3, r1, r2, r3, e', rfl, hb⟩

theorem AtLeast.skip {α β : Type} {p : Prog α} {f : α → Prog β} {n : Nat} {Q : β → Prop}
    (h : AtLeast p 0 fun _ => True) (hf : ∀ a, AtLeast (f a) n Q) : AtLeast (p >>= f) n Q := by
  have := AtLeast.bind h fun a _ => hf a
  rwa [Nat.zero_add] at this

theorem AtLeast.keep {α β : Type} {p : Prog α} {f : α → Prog β} {n : Nat} {Q : β → Prop}
    (h : AtLeast p n fun _ => True) (hf : ∀ a, AtLeast (f a) 0 Q) : AtLeast (p >>= f) n Q :=
  AtLeast.bind (n := 0) h fun a _ => hf a

theorem addFlags_single {name flag : Str} {e : Elem} {k : Nat}
    (h : AtLeast (Th.addFlag1 name flag e) k fun _ => True) :
    AtLeast (Th.addFlagRecursiveIfName name flag [e]) k fun _ => True := by
  rw [Th.addFlagRecursiveIfName]
  refine AtLeast.keep h fun _ => ?_
  rw [Th.addFlagRecursiveIfName]
  exact ⟨rfl, trivial⟩

theorem addFlag1_other {name flag n v : Str} {r : Nat} {cs : List Elem} {k : Nat} (hn : n ≠ name)
    (h : AtLeast (Th.addFlagRecursiveIfName name flag cs) k fun _ => True) :
    AtLeast (Th.addFlag1 name flag (.mk n v r cs)) k fun _ => True := by
  rw [Th.addFlag1, if_neg (by simpa using hn)]
  exact h

theorem addFlag1_atLeast (flag : Str) : ∀ (k : Nat) (e : Elem), bareOf (tableTower k) = some e.bare →
    AtLeast (Th.addFlag1 c!"mtable" flag e) k fun _ => True := by
  intro k
  induction k with
  | zero =>
    intro e h
    obtain ⟨n, v, r, cs⟩ := e
    rw [tableTower, bareOf, bareOfL, bareOf, bareOfL] at h
    · simp only [Elem.bare, Option.some.injEq, Elem.mk.injEq] at h
      obtain ⟨rfl, _, _, h⟩ := h
      cases cs with
      | cons _ _ => rw [Elem.bareL] at h; cases h
      | nil =>
        refine addFlag1_other (by decide) ?_
        rw [Th.addFlagRecursiveIfName]
        exact ⟨rfl, trivial⟩
    · simp
  | succ k ih =>
    intro e h
    obtain ⟨v1, v2, v3, r1, r2, r3, e', rfl, h'⟩ := nested_inv h
    rw [Th.addFlag1, if_pos (by decide), Nat.add_comm]
    refine AtLeast.bind (Q := fun _ => True) (m := 1) ⟨rfl, trivial⟩ fun _ _ => ?_
    exact addFlags_single (addFlag1_other (by decide) (addFlags_single (addFlag1_other (by decide)
      (addFlags_single (ih e' h')))))

theorem runKids_single {e : Elem} {k : Nat} (h : AtLeast (Th.convertElem e) k fun _ => True) :
    AtLeast (Th.runKids (Th.kidsOf [e])) k fun _ => True := by
  rw [Th.kidsOf, Th.kidsOf, Th.runKids]
  exact AtLeast.keep h fun _ => ⟨rfl, trivial⟩

/-- Steps that nested tables need. -/
def nestedSteps : Nat → Nat
  | 0 => 0
  | k + 1 => k + nestedSteps k

theorem toConv_nested : ∀ (k : Nat) (e : Elem), bareOf (tableTower k) = some e.bare →
    AtLeast (Th.convertElem e) (nestedSteps k) fun _ => True := by
  intro k
  induction k with
  | zero =>
    intro e h
    obtain ⟨n, v, r, cs⟩ := e
    rw [tableTower, bareOf, bareOfL, bareOf, bareOfL] at h
    · simp only [Elem.bare, Option.some.injEq, Elem.mk.injEq] at h
      obtain ⟨rfl, _, _, _⟩ := h
      rw [Th.convertElem, Th.toConv, show classify c!"mn" = .mn by decide]
      exact ⟨rfl, trivial⟩
    · simp
  | succ k ih =>
    intro e h
    obtain ⟨v1, v2, v3, r1, r2, r3, e', rfl, h'⟩ := nested_inv h
    have hm : AtLeast (Th.addFlagRecursiveIfName c!"mtable" innerTable
        [.mk c!"mtr" v2 r2 [.mk c!"mtd" v3 r3 [e']]]) k fun _ => True :=
      addFlags_single (addFlag1_other (by decide) (addFlags_single (addFlag1_other (by decide)
        (addFlags_single (addFlag1_atLeast _ k e' h')))))
    have hd : AtLeast (Th.convertElem (.mk c!"mtd" v3 r3 [e'])) (nestedSteps k) fun _ => True := by
      rw [Th.convertElem, Th.toConv, show classify c!"mtd" = .spacing by decide]
      show AtLeast (Th.spacingConvert _) _ _
      unfold Th.spacingConvert
      exact AtLeast.keep (runKids_single (ih e' h')) fun _ => ⟨rfl, trivial⟩
    have hr : AtLeast (Th.convertElem (.mk c!"mtr" v2 r2 [.mk c!"mtd" v3 r3 [e']])) (nestedSteps k)
        fun _ => True := by
      rw [Th.convertElem, Th.toConv, show classify c!"mtr" = .mtr by decide]
      show AtLeast (Th.mtrConvert _) _ _
      unfold Th.mtrConvert
      exact AtLeast.keep (runKids_single hd) fun _ => ⟨rfl, trivial⟩
    rw [Th.convertElem, Th.toConv, show classify c!"mtable" = .mtable by decide, nestedSteps]
    refine AtLeast.bind (Q := fun p => AtLeast p (nestedSteps k) fun _ => True)
      (AtLeast.keep hm fun _ => ⟨rfl, ?_⟩) fun _ h => h
    refine AtLeast.keep (runKids_single hr) fun _ => ?_
    refine fun a => ?_
    show AtLeast (if _ then _ else _) _ _
    split <;> exact ⟨rfl, trivial⟩

theorem nestedSteps_eq (k : Nat) : 2 * nestedSteps k = k * (k - 1) := by
  induction k with
  | zero => rfl
  | succ k ih =>
    rw [nestedSteps, Nat.mul_add, ih, Nat.add_sub_cancel]
    cases k with
    | zero => rfl
    | succ k =>
      rw [Nat.add_sub_cancel, Nat.mul_comm (k + 1) k, ← Nat.add_mul]
      congr 1
      omega

mutual
theorem buildElem_atLeast (n : Node) : AtLeast (Th.buildElem n) (elementsOf n).length
    fun e => e.map Elem.bare = bareOf n := by
  match n with
  | .text _ => rw [Th.buildElem, bareOf] <;> first | exact ⟨rfl, rfl⟩ | simp
  | .cdata _ => rw [Th.buildElem, bareOf] <;> first | exact ⟨rfl, rfl⟩ | simp
  | .comment _ => rw [Th.buildElem, bareOf] <;> first | exact ⟨rfl, rfl⟩ | simp
  | .pi _ _ => rw [Th.buildElem, bareOf] <;> first | exact ⟨rfl, rfl⟩ | simp
  | .elem tag attrs cs =>
    rw [Th.buildElem, elementsOf, List.length_cons, bareOf]
    refine fun r => ?_
    rw [Nat.add_sub_cancel]
    refine AtLeast.bind (n := 0) (buildElems_atLeast cs) fun es hes => ⟨rfl, ?_⟩
    show Option.map Elem.bare (some _) = _
    rw [Option.map_some, Elem.bare, hes]
theorem buildElems_atLeast (ns : List Node) : AtLeast (Th.buildElems ns) (elements ns).length
    fun es => Elem.bareL es = bareOfL ns := by
  match ns with
  | [] => rw [Th.buildElems, bareOfL]; exact ⟨rfl, rfl⟩
  | n :: ns =>
    rw [Th.buildElems, elements, List.length_append, bareOfL]
    refine (buildElem_atLeast n).bind fun e he => ?_
    refine AtLeast.bind (n := 0) (buildElems_atLeast ns) fun es hes => ⟨rfl, ?_⟩
    rw [← he]
    cases e with
    | none => exact hes
    | some e =>
      show Elem.bareL (e :: es) = _
      rw [Elem.bareL, hes]
      rfl
end

theorem nested_isElem (k : Nat) : ∃ b, bareOf (tableTower k) = some b := by
  cases k with
  | zero => exact ⟨_, by rw [tableTower, bareOf]⟩
  | succ k => exact ⟨_, by rw [tableTower, bareOf]⟩

theorem renderNodes_nested (k : Nat) :
    AtLeast (Th.renderNodes [.elem c!"math" [] [tableTower k]]) (nestedSteps k) fun _ => True := by
  rw [Th.renderNodes]
  refine ((buildElems_atLeast _).bind (n := nestedSteps k) (R := fun _ => True) fun es hes => ?_).mono
    (by omega) fun _ h => h
  obtain ⟨b, hb⟩ := nested_isElem k
  simp only [bareOfL, bareOf, hb] at hes
  rcases es with _ | ⟨⟨n1, v1, r1, c1⟩, _ | ⟨_, _⟩⟩ <;> simp only [Elem.bareL, Elem.bare, List.cons.injEq,
    Elem.mk.injEq, reduceCtorEq, and_false, and_true] at hes
  obtain ⟨rfl, _, _, h⟩ := hes
  rcases c1 with _ | ⟨e', _ | ⟨_, _⟩⟩ <;> simp only [Elem.bareL, List.cons.injEq,
    reduceCtorEq, and_false, and_true] at h
  subst h
  have hm : AtLeast (Th.mathConvert (Th.kidsOf [e'])) (nestedSteps k) fun _ => True := by
    unfold Th.mathConvert
    exact AtLeast.keep (runKids_single (toConv_nested k e' hb)) fun _ => ⟨rfl, trivial⟩
  unfold Th.renderAll
  rw [Th.constructAll, Th.constructAll, Th.toConv, show classify c!"math" = .math by decide]
  show AtLeast (Th.convertAll [Th.mathConvert (Th.kidsOf [e'])] >>= _) _ _
  rw [Th.convertAll, Th.convertAll]
  refine AtLeast.keep (AtLeast.keep hm fun _ => ⟨rfl, trivial⟩) fun _ => ⟨rfl, trivial⟩

/-! ## Pairs of tables -/

theorem pairs_add (a b : Nat) : a * (a - 1) + b * (b - 1) ≤ (a + b) * (a + b - 1) := by
  cases a with
  | zero => simp
  | succ a =>
    cases b with
    | zero => simp
    | succ b =>
      rw [Nat.add_sub_cancel, Nat.add_sub_cancel, show a + 1 + (b + 1) - 1 = a + b + 1 by omega, Nat.add_mul (a + 1)]
      exact Nat.add_le_add (Nat.mul_le_mul_left _ (by omega)) (Nat.mul_le_mul_left _ (by omega))

mutual
theorem tablePairs_le (n : Node) :
    2 * tablePairs n ≤ (tablesOf n).length * ((tablesOf n).length - 1) := by
  match n with
  | .text _ => exact Nat.zero_le _
  | .cdata _ => exact Nat.zero_le _
  | .comment _ => exact Nat.zero_le _
  | .pi _ _ => exact Nat.zero_le _
  | .elem tag A cs =>
    have ih := tablePairsL_le cs
    rw [tablePairs_elem, tablesOf, elementsOf, List.filter_cons, isTable]
    by_cases h : tag = c!"mtable"
    · simp only [h, beq_self_eq_true, if_true, List.length_cons, Nat.add_sub_cancel]
      generalize ((elements cs).filter isTable).length = t at *
      cases t with
      | zero => simp only [Nat.zero_mul] at ih; omega
      | succ t =>
        rw [Nat.add_sub_cancel] at ih
        rw [Nat.mul_add, show (t + 1 + 1) * (t + 1) = 2 * (t + 1) + (t + 1) * t by
          rw [Nat.mul_comm (t + 1) t, ← Nat.add_mul]; congr 1; omega]
        omega
    · simp only [h, beq_iff_eq, if_false, Nat.zero_add]
      exact ih
theorem tablePairsL_le (ns : List Node) : 2 * tablePairsL ns ≤
    ((elements ns).filter isTable).length * (((elements ns).filter isTable).length - 1) := by
  match ns with
  | [] => exact Nat.zero_le _
  | n :: ns =>
    have h1 := tablePairs_le n
    have h2 := tablePairsL_le ns
    unfold tablesOf at h1
    rw [tablePairsL_cons, elements, List.filter_append, List.length_append]
    refine Nat.le_trans ?_ (pairs_add _ _)
    omega
end

end Verif
