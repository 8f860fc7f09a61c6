import Verif.Refine.Heap
import Verif.Spec.History

/-! # Conversions keep the invariant of the heap, wherever they start -/

namespace Verif
open Spec

/-- `act` re-establishes `I`, and what it returns satisfies `P` in any case. -/
structure Keeps {α : Type} (I : Heap → Prop) (act : M α) (P : α → Prop) : Prop where
  inv : ∀ h, I h → I (act h).2
  post : ∀ h a, (act h).1 = .ok a → P a

theorem run_bind {α β : Type} (x : M α) (f : α → M β) (h : Heap) :
    (x >>= f) h = match (x h).1 with
      | .ok a => f a (x h).2
      | .error e => (.error e, (x h).2) := by
  have e : (x >>= f) h = ExceptT.bind (m := StateM Heap) x f h := rfl
  rw [e]
  simp only [ExceptT.bind, ExceptT.mk, Bind.bind, StateT.bind, ExceptT.bindCont]
  generalize x h = q
  obtain ⟨r, h1⟩ := q
  cases r <;> rfl

namespace Keeps
variable {α β : Type} {I : Heap → Prop}

theorem ok {P : α → Prop} {a : α} (h : P a) : Keeps I (pure a : M α) P := by
  refine ⟨fun _ hI => hI, fun _ b hb => ?_⟩
  have : (Except.ok a : Except Exc α) = .ok b := hb
  cases this
  exact h

theorem err {P : α → Prop} (e : Exc) : Keeps I (throw e : M α) P := by
  refine ⟨fun _ hI => hI, fun _ b hb => ?_⟩
  have : (Except.error e : Except Exc α) = .ok b := hb
  cases this

theorem bind {x : M α} {f : α → M β} {Q : α → Prop} {P : β → Prop} (hx : Keeps I x Q)
    (hf : ∀ a, Q a → Keeps I (f a) P) : Keeps I (x >>= f) P := by
  constructor
  · intro h hI
    rw [run_bind]
    cases hr : (x h).1 with
    | error e => exact hx.inv h hI
    | ok a => exact (hf a (hx.post h a hr)).inv _ (hx.inv h hI)
  · intro h b hb
    rw [run_bind] at hb
    cases hr : (x h).1 with
    | error e => rw [hr] at hb; cases hb
    | ok a => rw [hr] at hb; exact (hf a (hx.post h a hr)).post _ b hb

theorem attrs {r : Nat} : Keeps I (attributes r) (fun _ => True) :=
  ⟨fun _ hI => hI, fun _ _ _ => trivial⟩

end Keeps

/-- Actions of children that keep the invariant. -/
def KidsKeep (I : Heap → Prop) (kids : List Kid) : Prop := ∀ k ∈ kids, Keeps I k.2 fun _ => True

theorem keeps_runKids {I : Heap → Prop} : ∀ {kids : List Kid}, KidsKeep I kids →
    Keeps I (runKids kids) fun _ => True
  | [], _ => Keeps.ok trivial
  | k :: _, h => Keeps.bind (h k List.mem_cons_self) fun _ _ =>
      Keeps.bind (keeps_runKids fun k' hk => h k' (List.mem_cons_of_mem _ hk)) fun _ _ =>
        Keeps.ok trivial

theorem keeps_base {I : Heap → Prop} {k : Kid} (h : Keeps I k.2 fun _ => True) :
    Keeps I (handleBaseChild k) fun _ => True := by
  refine Keeps.bind h fun _ _ => ?_
  split <;> exact Keeps.ok trivial

theorem keeps_script {I : Heap → Prop} {k : Kid} (h : Keeps I k.2 fun _ => True) :
    Keeps I (handleScriptChild k) fun _ => True := Keeps.bind h fun _ _ => Keeps.ok trivial

theorem keeps_pair {I : Heap → Prop} (p : Str) {k k' : Kid} (h : Keeps I k.2 fun _ => True)
    (h' : Keeps I k'.2 fun _ => True) : Keeps I (scriptPair p k k') fun _ => True :=
  Keeps.bind h fun _ _ => Keeps.bind h' fun _ _ => Keeps.ok trivial

theorem keeps_construct {I : Heap → Prop} {kind : Kind} {name value : Str} {aref : Nat}
    {cs : List Elem} {kids : List Kid} (hk : KidsKeep I kids)
    (hf : kind = .mtable → Keeps I (addFlagRecursiveIfName c!"mtable" innerTable cs) fun _ => True) :
    Keeps I (construct kind name value aref cs kids) fun k => Keeps I k fun _ => True := by
  have hr := keeps_runKids hk
  cases kind with
  | math => exact Keeps.ok (Keeps.bind hr fun _ _ => Keeps.ok trivial)
  | mi => exact Keeps.ok (Keeps.bind Keeps.attrs fun _ _ => Keeps.ok trivial)
  | mo => exact Keeps.ok (Keeps.ok trivial)
  | mn => exact Keeps.ok (Keeps.ok trivial)
  | msqrt => exact Keeps.ok (Keeps.bind hr fun _ _ => Keeps.ok trivial)
  | mfenced =>
    refine Keeps.bind Keeps.attrs fun _ _ => Keeps.ok (Keeps.bind hr fun _ _ => ?_)
    split <;> exact Keeps.ok trivial
  | mfrac =>
    refine Keeps.ok ?_
    unfold mfracConvert
    split
    · refine Keeps.bind (hk _ (by simp)) fun _ _ => Keeps.bind (hk _ (by simp)) fun _ _ =>
        Keeps.bind Keeps.attrs fun _ _ => ?_
      split <;> exact Keeps.ok trivial
    · exact Keeps.err _
  | mroot =>
    refine Keeps.ok ?_
    unfold mrootConvert
    split
    · exact Keeps.bind (hk _ (by simp)) fun _ _ => Keeps.bind (hk _ (by simp)) fun _ _ =>
        Keeps.ok trivial
    · exact Keeps.err _
  | maction =>
    refine Keeps.ok ?_
    unfold mactionConvert
    refine Keeps.bind Keeps.attrs fun _ _ => ?_
    simp only
    split
    · exact Keeps.bind hr fun _ _ => Keeps.ok trivial
    · split
      · exact Keeps.err _
      · exact hk _ (by simp)
  | menclose =>
    exact Keeps.bind Keeps.attrs fun _ _ => Keeps.ok (Keeps.bind hr fun _ _ => Keeps.ok trivial)
  | merror => exact Keeps.ok (Keeps.bind hr fun _ _ => Keeps.ok trivial)
  | void => exact Keeps.ok (Keeps.ok trivial)
  | msup =>
    refine Keeps.ok ?_
    unfold msupConvert
    split
    · exact Keeps.bind (keeps_base (hk _ (by simp))) fun _ _ =>
        Keeps.bind (keeps_script (hk _ (by simp))) fun _ _ => Keeps.ok trivial
    · exact Keeps.err _
  | msub =>
    refine Keeps.ok ?_
    unfold msubConvert
    split
    · exact Keeps.bind (keeps_base (hk _ (by simp))) fun _ _ =>
        Keeps.bind (keeps_script (hk _ (by simp))) fun _ _ => Keeps.ok trivial
    · exact Keeps.err _
  | msubsup =>
    refine Keeps.ok ?_
    unfold msubsupConvert
    split
    · exact Keeps.bind (keeps_base (hk _ (by simp))) fun _ _ =>
        Keeps.bind (keeps_script (hk _ (by simp))) fun _ _ =>
        Keeps.bind (keeps_script (hk _ (by simp))) fun _ _ => Keeps.ok trivial
    · exact Keeps.err _
  | mmultiscripts =>
    refine Keeps.ok ?_
    have h1 : Keeps I (prescriptLatex kids) fun _ => True := by
      unfold prescriptLatex
      split
      · split
        · exact keeps_pair _ (hk _ (by simp)) (hk _ (by simp))
        · split
          · split
            · exact keeps_pair _ (hk _ (by simp)) (hk _ (by simp))
            · exact Keeps.ok trivial
          · exact Keeps.ok trivial
      · exact Keeps.ok trivial
    have h2 : Keeps I (postscriptLatex kids) fun _ => True := by
      unfold postscriptLatex
      split
      · split
        · exact Keeps.ok trivial
        · exact keeps_pair _ (hk _ (by simp)) (hk _ (by simp))
      · exact Keeps.ok trivial
    unfold mmultiscriptsConvert
    split
    · exact Keeps.bind (hk _ (by simp)) fun _ _ => Keeps.bind h1 fun _ _ => Keeps.bind h2 fun _ _ =>
        Keeps.ok trivial
    · exact Keeps.err _
  | mtext => exact Keeps.ok (Keeps.bind Keeps.attrs fun _ _ => Keeps.ok trivial)
  | munderover =>
    refine Keeps.ok ?_
    unfold munderoverConvert
    split
    · exact Keeps.bind (hk _ (by simp)) fun _ _ => Keeps.bind (hk _ (by simp)) fun _ _ =>
        Keeps.bind (hk _ (by simp)) fun _ _ => Keeps.ok trivial
    · exact Keeps.err _
  | mtable =>
    refine Keeps.bind (hf rfl) fun _ _ => Keeps.ok ?_
    refine Keeps.bind hr fun _ _ => Keeps.bind Keeps.attrs fun _ _ => ?_
    split <;> exact Keeps.ok trivial
  | mtr => exact Keeps.ok (Keeps.bind hr fun _ _ => Keeps.ok trivial)
  | underOver =>
    refine Keeps.ok ?_
    unfold underOverConvert
    split
    · exact Keeps.bind (hk _ (by simp)) fun _ _ => Keeps.bind (hk _ (by simp)) fun _ _ =>
        Keeps.ok trivial
    · exact Keeps.err _
  | spacing => exact Keeps.ok (Keeps.bind hr fun _ _ => Keeps.ok trivial)

theorem keeps_addFlags {S F : Nat → Prop} {c0 : Nat → Attrs} {cs : List Elem}
    (h : ∀ r ∈ tableRefsL cs, S r) :
    Keeps (HInv S F c0) (addFlagRecursiveIfName c!"mtable" innerTable cs) fun _ => True := by
  refine ⟨fun h0 hI => ?_, fun _ _ _ => trivial⟩
  obtain ⟨h', e, H⟩ := addFlags_spec (S := S) (c0 := c0) cs F h0 hI h
  rw [e]
  exact H.mono fun r hr => .inl hr

mutual
theorem keeps_toConv {S F : Nat → Prop} {c0 : Nat → Attrs} (e : Elem) (b : Bool) (hw : WfT S b e) :
    Keeps (HInv S F c0) (toConv e) fun k => Keeps (HInv S F c0) k fun _ => True := by
  obtain ⟨n, v, r, cs⟩ := e
  rw [WfT] at hw
  rw [toConv]
  refine keeps_construct (keeps_kidsOf cs _ hw.2) fun hm => ?_
  have hn := (classify_mtable n).1 hm
  have h2 := hw.2
  rw [hn] at h2
  simp only [BEq.rfl, Bool.or_true] at h2
  exact keeps_addFlags (tableRefsL_sub cs h2)
theorem keeps_kidsOf {S F : Nat → Prop} {c0 : Nat → Attrs} (es : List Elem) (b : Bool)
    (hw : WfTs S b es) : KidsKeep (HInv S F c0) (kidsOf es) := by
  match es with
  | [] => simp [kidsOf, KidsKeep]
  | e :: es =>
    rw [WfTs] at hw
    intro k hk
    rw [kidsOf] at hk
    rcases List.mem_cons.1 hk with rfl | hk
    · exact Keeps.bind (keeps_toConv e b hw.1) fun _ h => h
    · exact keeps_kidsOf es b hw.2 k hk
end

theorem WfTs.mem {S : Nat → Prop} {b : Bool} : ∀ {es : List Elem} {e : Elem}, WfTs S b es →
    e ∈ es → WfT S b e
  | [], _, _, h => by cases h
  | e' :: es, e, hw, h => by
    rw [WfTs] at hw
    rcases List.mem_cons.1 h with rfl | h
    · exact hw.1
    · exact WfTs.mem hw.2 h

theorem Spec.Within.wf {S : Nat → Prop} {e root : Elem} (h : Within e root) :
    ∀ {b}, WfT S b root → ∃ b', WfT S b' e := by
  induction h with
  | self => intro b hb; exact ⟨b, hb⟩
  | @child r c e' hc _ ih =>
    intro b hb
    obtain ⟨n, v, r, cs⟩ := r
    rw [WfT] at hb
    exact ih (WfTs.mem hb.2 hc)

theorem WfEs.mem {S : Nat → Prop} {b : Bool} : ∀ {es : List Elem} {e : Elem}, WfEs S b es →
    e ∈ es → WfE S b e
  | [], _, _, h => by cases h
  | e' :: es, e, hw, h => by
    rw [WfEs] at hw
    rcases List.mem_cons.1 h with rfl | h
    · exact hw.1
    · exact WfEs.mem hw.2 h

theorem Spec.Within.wfE {S : Nat → Prop} {e root : Elem} (h : Within e root) :
    ∀ {b}, WfE S b root → ∃ b', WfE S b' e := by
  induction h with
  | self => intro b hb; exact ⟨b, hb⟩
  | @child r c e' hc _ ih =>
    intro b hb
    obtain ⟨n, v, r, cs⟩ := r
    rw [WfE] at hb
    exact ih (WfEs.mem hb.2 hc)

/-- Apart from tables, creating a converter only looks at the element's own attributes. -/
theorem construct_fixed {kind : Kind} (hk : kind ≠ .mtable) (name value : Str) (aref : Nat)
    (cs : List Elem) (kids : List Kid) (a : Attrs) :
    ∃ k, ∀ h : Heap, Agree (h.cells aref) a → construct kind name value aref cs kids h = (.ok k, h) := by
  cases kind with
  | mtable => exact absurd rfl hk
  | mfenced =>
    refine ⟨mfencedConvert (Attrs.getD a c!"open" []) (Attrs.getD a c!"close" [])
      ((Attrs.getD a c!"separators" []).map (fun c => [c])) kids, fun h ha => ?_⟩
    rw [← ha c!"open" [] (by decide), ← ha c!"close" [] (by decide), ← ha c!"separators" [] (by decide)]
    rfl
  | menclose =>
    refine ⟨mencloseConvert (Attrs.getD a c!"notation" c!"longdiv") kids, fun h ha => ?_⟩
    rw [← ha c!"notation" c!"longdiv" (by decide)]
    rfl
  | _ => exact ⟨_, fun _ _ => rfl⟩

/-- A converter of the root computes the pure result, now and later. -/
theorem toConv_sim {S : Nat → Prop} {c0 : Nat → Attrs} {e : Elem} (hw : WfT S false e) {h h' : Heap}
    {k : M Str} (hI : HInv S (fun _ => False) c0 h) (hc : toConv e h = (.ok k, h')) :
    ∃ F, HInv S F c0 h' ∧ Sim (HInv S F c0) k (pconv false (view c0 e)) := by
  have hsim := convertElem_sim (c0 := c0) e (fun _ => False) false hw (by simp)
  obtain ⟨n, v, r, cs⟩ := e
  rw [WfT] at hw
  by_cases hn : n = c!"mtable"
  · subst hn
    have hcl : classify c!"mtable" = .mtable := (classify_mtable _).2 rfl
    have hw2 : WfTs S true cs := by simpa using hw.2
    obtain ⟨h1, e1, H1⟩ := addFlags_spec (S := S) (c0 := c0) cs _ h hI (tableRefsL_sub cs hw2)
    have e2 : toConv (.mk c!"mtable" v r cs) h = (.ok (mtableConvert r (kidsOf cs)), h1) := by
      rw [toConv, hcl]
      show (ExceptT.bind (m := StateM Heap) _ _ : M (M Str)) h = _
      simp only [ExceptT.bind, ExceptT.mk, Bind.bind, StateT.bind, ExceptT.bindCont, e1]
      rfl
    rw [e2] at hc
    cases hc
    refine ⟨_, H1, ?_⟩
    have hk := kids_sim (S := S) (c0 := c0) cs (fun x => False ∨ x ∈ tableRefsL cs) true hw2
      (fun _ x hx => .inr hx)
    rw [view, pconv]
    have hb : (false || c!"mtable" == c!"mtable") = true := by simp
    rw [hb, hcl]
    refine Sim.bind hk.run fun ss => Sim.attrs fun h2 H2 => ⟨h2, ?_, H2⟩
    rw [H2.frame r (by simpa using hw.1 rfl)]
    by_cases hi : Attrs.getD (c0 r) innerTable [] = []
    · simp [hi]; rfl
    · simp [hi]; rfl
  · have hcl : classify n ≠ .mtable := fun e => hn ((classify_mtable n).1 e)
    obtain ⟨k', hk'⟩ := construct_fixed hcl n v r cs (kidsOf cs) (c0 r)
    have hk'' : ∀ h, HInv S (fun _ => False) c0 h → toConv (.mk n v r cs) h = (.ok k', h) :=
      fun h H => by rw [toConv]; exact hk' h (H.agree r)
    rw [hk'' h hI] at hc
    cases hc
    refine ⟨_, hI, fun h H => ?_⟩
    obtain ⟨h2, e2, H2⟩ := hsim h H
    refine ⟨h2, ?_, H2⟩
    rw [← e2]
    unfold convertElem
    rw [run_bind, hk'' h H]

/-- The invariant of histories. -/
theorem Spec.History.inv {S : Nat → Prop} {c0 : Nat → Attrs} {root : Elem} {h0 : Heap}
    (hw : WfT S false root) (hI : HInv S (fun _ => False) c0 h0) {ks : List (Elem × M Str)} {h : Heap}
    (hh : History root h0 ks h) :
    HInv S (fun _ => False) c0 h ∧
    (∀ p ∈ ks, ∀ F, Keeps (HInv S F c0) p.2 fun _ => True) ∧
    ∀ k, (root, k) ∈ ks → ∃ F, HInv S F c0 h ∧ Sim (HInv S F c0) k (pconv false (view c0 root)) := by
  induction hh with
  | start => exact ⟨hI, by simp, by simp⟩
  | @create ks h e k h' _ hin hc ih =>
    obtain ⟨h1, h2, h3⟩ := ih
    obtain ⟨b, hb⟩ := hin.wf hw
    have hkeep : ∀ F, Keeps (HInv S F c0) (toConv e) fun k => Keeps (HInv S F c0) k fun _ => True :=
      fun F => keeps_toConv e b hb
    have hF : ∀ F, HInv S F c0 h → HInv S F c0 h' := fun F H => by
      have := (hkeep F).inv h H
      rw [hc] at this
      exact this
    refine ⟨hF _ h1, ?_, ?_⟩
    · intro p hp F
      rcases List.mem_cons.1 hp with rfl | hp
      · exact (hkeep F).post h k (by rw [hc])
      · exact h2 p hp F
    · intro k' hk'
      rcases List.mem_cons.1 hk' with hk' | hk'
      · cases hk'
        exact toConv_sim hw h1 hc
      · obtain ⟨F, H, hs⟩ := h3 k' hk'
        exact ⟨F, hF F H, hs⟩
  | @convert ks h e k _ hk ih =>
    obtain ⟨h1, h2, h3⟩ := ih
    have hF : ∀ F, HInv S F c0 h → HInv S F c0 (k h).2 := fun F H => (h2 (e, k) hk F).inv h H
    refine ⟨hF _ h1, h2, fun k' hk' => ?_⟩
    obtain ⟨F, H, hs⟩ := h3 k' hk'
    exact ⟨F, hF F H, hs⟩

end Verif
