import Verif.Refine.Threads
import Verif.Spec.Threads

/-!
# Rely–guarantee reasoning for the programs of `Verif.Model.Threads`

What a thread knows about the memory is a `World`: the dictionaries that it can reach, those of them
that may be written (tables below a table), those already marked, and the contents of the others.
Other threads may mark dictionaries of the second kind at any moment; nothing else can happen to a
dictionary that is known.  `wp p Q W` says that `p`, started by a thread with the knowledge `W`,
observes this discipline and ends in `Q`, whatever the other threads do.
-/

namespace Verif
open Spec

/-- The knowledge of a thread (see above). -/
structure World where
  dom : Nat → Prop
  S : Nat → Prop
  F : Nat → Prop
  c0 : Nat → Attrs

namespace World

/-- A dictionary has been created; `s`: it may be written. -/
def add (W : World) (r : Nat) (a : Attrs) (s : Prop) : World where
  dom x := x = r ∨ W.dom x
  S x := if x = r then s else W.S x
  F x := x ≠ r ∧ W.F x
  c0 x := if x = r then a else W.c0 x

/-- Another set of marked dictionaries. -/
def withF (W : World) (F : Nat → Prop) : World := { W with F := F }

/-- A dictionary has been marked. -/
def mark (W : World) (r : Nat) : World := W.withF fun x => W.F x ∨ x = r

/-- More dictionaries are known. -/
def Le (W W' : World) : Prop :=
  ∀ r, W.dom r → W'.dom r ∧ (W.S r ↔ W'.S r) ∧ W.c0 r = W'.c0 r

theorem Le.refl (W : World) : Le W W := fun _ h => ⟨h, Iff.rfl, rfl⟩

theorem Le.trans {W W' W'' : World} (h : Le W W') (h' : Le W' W'') : Le W W'' := fun r hr =>
  ⟨(h' r (h r hr).1).1, (h r hr).2.1.trans (h' r (h r hr).1).2.1,
    (h r hr).2.2.trans (h' r (h r hr).1).2.2⟩

theorem le_add {W : World} {r : Nat} (hr : ¬ W.dom r) (a : Attrs) (s : Prop) :
    Le W (W.add r a s) := by
  intro x hx
  have : x ≠ r := fun e => hr (e ▸ hx)
  simp [add, this, hx]

end World

/-- The memory is as the thread believes. -/
structure HOK (W : World) (h : Heap) : Prop where
  lt : ∀ r, W.dom r → r < h.next
  frame : ∀ r, W.dom r → ¬ W.S r → h.cells r = W.c0 r
  marked : ∀ r, W.dom r → W.F r → Attrs.getD (h.cells r) innerTable [] ≠ []

/-- The program keeps to the discipline and ends in `Q`. -/
def wp {α : Type} : Prog α → (World → Except Exc α → Prop) → World → Prop
  | .pure a, Q, W => Q W (.ok a)
  | .throw e, Q, W => Q W (.error e)
  | .alloc a k, Q, W => ∃ s : Prop, ∀ r, ¬ W.dom r → wp (k r) Q (W.add r a s)
  | .read r k, Q, W => W.dom r ∧ ∀ a : Attrs, (¬ W.S r → a = W.c0 r) →
      (W.F r → Attrs.getD a innerTable [] ≠ []) → wp (k a) Q W
  | .setItem r key v p, Q, W => (key = innerTable ∧ v = innerTable ∧ W.dom r ∧ W.S r) ∧
      wp p Q (W.mark r)

section
variable {α β : Type}

theorem wp.mono {p : Prog α} {Q Q' : World → Except Exc α → Prop} {W : World}
    (h : wp p Q W) (hQ : ∀ W r, Q W r → Q' W r) : wp p Q' W := by
  induction p generalizing W with
  | pure a => exact hQ _ _ h
  | throw e => exact hQ _ _ h
  | alloc a k ih =>
    obtain ⟨s, h⟩ := h
    exact ⟨s, fun r hr => ih r (h r hr)⟩
  | read r k ih => exact ⟨h.1, fun a h1 h2 => ih a (h.2 a h1 h2)⟩
  | setItem r key v p ih => exact ⟨h.1, ih h.2⟩

/-- What comes after a program that has ended. -/
def after (f : α → Prog β) (Q : World → Except Exc β → Prop) : World → Except Exc α → Prop
  | W, .ok a => wp (f a) Q W
  | W, .error e => Q W (.error e)

theorem wp.bind {p : Prog α} {f : α → Prog β} {Q : World → Except Exc β → Prop} {W : World}
    (h : wp p (after f Q) W) : wp (p >>= f) Q W := by
  rw [Prog.bind_eq]
  induction p generalizing W with
  | pure a => exact h
  | throw e => exact h
  | alloc a k ih =>
    obtain ⟨s, h⟩ := h
    exact ⟨s, fun r hr => ih r (h r hr)⟩
  | read r k ih => exact ⟨h.1, fun a h1 h2 => ih a (h.2 a h1 h2)⟩
  | setItem r key v p ih => exact ⟨h.1, ih h.2⟩
end

/-! ## Threads -/

/-- The memory after a step of another thread. -/
theorem HOK.setItem {W : World} {h : Heap} (H : HOK W h) {r : Nat} (hr : W.dom r → W.S r) :
    HOK W (h.setItem r innerTable innerTable) := by
  refine ⟨H.lt, fun x hx hS => ?_, fun x hx hF => ?_⟩
  · have : x ≠ r := fun e => hS (e ▸ hr (e ▸ hx))
    simp [Heap.setItem, this, H.frame x hx hS]
  · by_cases e : x = r
    · subst e
      simp [Heap.setItem, Attrs.getD_set, innerTable_ne]
    · simpa [Heap.setItem, e] using H.marked x hx hF

theorem HOK.mark {W : World} {h : Heap} (H : HOK W h) {r : Nat} (hr : W.S r) :
    HOK (W.mark r) (h.setItem r innerTable innerTable) := by
  have H' := H.setItem (r := r) fun _ => hr
  refine ⟨H'.lt, H'.frame, fun x hx hF => ?_⟩
  rcases hF with hF | rfl
  · exact H'.marked x hx hF
  · simp [Heap.setItem, Attrs.getD_set, innerTable_ne]

/-- `alloc` as a function of the memory. -/
def Heap.push (h : Heap) (a : Attrs) : Heap :=
  ⟨h.next + 1, fun r => if r = h.next then a else h.cells r⟩

theorem HOK.push {W : World} {h : Heap} (H : HOK W h) (a : Attrs) : HOK W (h.push a) := by
  refine ⟨fun x hx => ?_, fun x hx hS => ?_, fun x hx hF => ?_⟩
  · have := H.lt x hx
    simp only [Heap.push]; omega
  · have := H.lt x hx
    simp only [Heap.push, if_neg (show x ≠ h.next by omega)]
    exact H.frame x hx hS
  · have := H.lt x hx
    simp only [Heap.push, if_neg (show x ≠ h.next by omega)]
    exact H.marked x hx hF

theorem HOK.add {W : World} {h : Heap} (H : HOK W h) (a : Attrs) (s : Prop) :
    HOK (W.add h.next a s) (h.push a) := by
  have H' := H.push a
  refine ⟨fun x hx => ?_, fun x hx hS => ?_, fun x hx hF => ?_⟩
  · rcases hx with rfl | hx
    · simp [Heap.push]
    · exact H'.lt x hx
  · by_cases e : x = h.next
    · simp [Heap.push, World.add, e]
    · have hx' : W.dom x := by rcases hx with hx | hx; exact absurd hx e; exact hx
      simp only [World.add, if_neg e] at hS ⊢
      exact H'.frame x hx' hS
  · have hx' : W.dom x := by rcases hx with hx | hx; exact absurd hx hF.1; exact hx
    exact H'.marked x hx' hF.2

/-- Two threads agree on what may be written. -/
def Compat (W W' : World) : Prop := ∀ r, W.dom r → W'.dom r → (W.S r ↔ W'.S r)

/-- Every thread observes the discipline and will end in its postcondition. -/
structure Safe (Q : Nat → Except Exc Str → Prop) (c : Config) (Ws : Nat → World) : Prop where
  thread : ∀ i p, c.threads[i]? = some p → wp p (fun _ => Q i) (Ws i) ∧ HOK (Ws i) c.heap
  compat : ∀ i j, i < c.threads.length → j < c.threads.length → Compat (Ws i) (Ws j)

theorem Safe.step {Q : Nat → Except Exc Str → Prop} {c c' : Config} {Ws : Nat → World} {i : Nat}
    (hs : Safe Q c Ws) (h : StepBy i c c') : ∃ Ws', Safe Q c' Ws' := by
  obtain ⟨p, p', h', hp, hstep, rfl⟩ := h
  obtain ⟨hw, hH⟩ := hs.thread i p hp
  have hi : i < c.threads.length := by
    rw [List.getElem?_eq_some_iff] at hp; exact hp.1
  cases p with
  | pure a => cases hstep
  | throw e => cases hstep
  | read r k =>
    cases hstep
    refine ⟨Ws, fun j q hq => ?_, fun j j' hj hj' => ?_⟩
    · by_cases e : j = i
      · subst e
        simp only [List.getElem?_set_self hi] at hq
        cases hq
        exact ⟨hw.2 _ (hH.frame r hw.1) (hH.marked r hw.1), hH⟩
      · simp only [List.getElem?_set_ne (Ne.symm e)] at hq
        exact hs.thread j q hq
    · simp only [List.length_set] at hj hj'
      exact hs.compat j j' hj hj'
  | setItem r key v p =>
    cases hstep
    obtain ⟨⟨rfl, rfl, hd, hS⟩, hw⟩ := hw
    refine ⟨fun j => if j = i then (Ws i).mark r else Ws j, fun j q hq => ?_,
      fun j j' hj hj' => ?_⟩
    · by_cases e : j = i
      · subst e
        simp only [List.getElem?_set_self hi] at hq
        cases hq
        rw [if_pos rfl]
        exact ⟨hw, hH.mark hS⟩
      · simp only [List.getElem?_set_ne (Ne.symm e)] at hq
        rw [if_neg e]
        have hj : j < c.threads.length := by
          rw [List.getElem?_eq_some_iff] at hq; exact hq.1
        obtain ⟨a, b⟩ := hs.thread j q hq
        exact ⟨a, b.setItem fun hd' => ((hs.compat i j hi hj) r hd hd').1 hS⟩
    · simp only [List.length_set] at hj hj'
      have := hs.compat j j' hj hj'
      intro x
      have h1 : ∀ k, ((if k = i then (Ws i).mark r else Ws k).dom x ↔ (Ws k).dom x) ∧
          ((if k = i then (Ws i).mark r else Ws k).S x ↔ (Ws k).S x) := by
        intro k
        split
        · rename_i e; subst e; exact ⟨Iff.rfl, Iff.rfl⟩
        · exact ⟨Iff.rfl, Iff.rfl⟩
      rw [(h1 j).1, (h1 j).2, (h1 j').1, (h1 j').2]
      exact this x
  | alloc a k =>
    cases hstep
    obtain ⟨s, hw⟩ := hw
    have hfresh : ∀ j, j < c.threads.length → ¬ (Ws j).dom c.heap.next := by
      intro j hj hd
      have := (hs.thread j _ (List.getElem?_eq_getElem hj)).2.lt _ hd
      omega
    refine ⟨fun j => if j = i then (Ws i).add c.heap.next a s else Ws j, fun j q hq => ?_,
      fun j j' hj hj' => ?_⟩
    · by_cases e : j = i
      · subst e
        simp only [List.getElem?_set_self hi] at hq
        cases hq
        rw [if_pos rfl]
        exact ⟨hw _ (hfresh j hi), hH.add a s⟩
      · simp only [List.getElem?_set_ne (Ne.symm e)] at hq
        rw [if_neg e]
        obtain ⟨a', b⟩ := hs.thread j q hq
        exact ⟨a', b.push a⟩
    · simp only [List.length_set] at hj hj'
      have h1 := hs.compat j j' hj hj'
      intro r
      by_cases e : j = i
      · by_cases e' : j' = i
        · rw [if_pos e, if_pos e']; exact fun _ _ => Iff.rfl
        · simp only [e, e', if_true, if_false, World.add]
          intro hd hd'
          have hr : r ≠ c.heap.next := fun x => hfresh j' hj' (x ▸ hd')
          rw [if_neg hr]
          rcases hd with hd | hd
          · exact absurd hd hr
          · subst e; exact h1 r hd hd'
      · by_cases e' : j' = i
        · simp only [e, e', if_true, if_false, World.add]
          intro hd hd'
          have hr : r ≠ c.heap.next := fun x => hfresh j hj (x ▸ hd)
          rw [if_neg hr]
          rcases hd' with hd' | hd'
          · exact absurd hd' hr
          · subst e'; exact h1 r hd hd'
        · simp only [e, e', if_false]; exact h1 r

theorem Safe.run {Q : Nat → Except Exc Str → Prop} {is : List Nat} {c c' : Config}
    (h : Run is c c') : ∀ {Ws : Nat → World}, Safe Q c Ws → ∃ Ws', Safe Q c' Ws' := by
  induction h with
  | nil => exact fun hs => ⟨_, hs⟩
  | cons h1 _ ih =>
    intro Ws hs
    obtain ⟨Ws', hs'⟩ := hs.step h1
    exact ih hs'

theorem Safe.result {Q : Nat → Except Exc Str → Prop} {c : Config} {Ws : Nat → World}
    (hs : Safe Q c Ws) {i : Nat} {p : Prog Str} (hp : c.threads[i]? = some p) {r : Except Exc Str}
    (hr : p.result = some r) : Q i r := by
  have h := (hs.thread i p hp).1
  cases p <;> simp only [Prog.result, Option.some.injEq, reduceCtorEq] at hr
  · subst hr; exact h
  · subst hr; exact h

/-! ## Programs with a known result -/

/-- Started by a thread that knows `W` and at least the marks `F`, the program ends with `r`;
only marks are added. -/
def GSim {α : Type} (W : World) (F : Nat → Prop) (p : Prog α) (r : Except Exc α) : Prop :=
  ∀ F', (∀ x, F x → F' x) → wp p (fun W' r' => r' = r ∧ ∃ F'', (∀ x, F' x → F'' x) ∧
    W' = W.withF F'') (W.withF F')

namespace GSim
variable {α β : Type} {W : World} {F : Nat → Prop}

theorem ok (a : α) : GSim W F (pure a : Prog α) (.ok a) :=
  fun F' _ => ⟨rfl, F', fun _ h => h, rfl⟩

theorem err (e : Exc) : GSim W F (.throw e : Prog α) (.error e) :=
  fun F' _ => ⟨rfl, F', fun _ h => h, rfl⟩

theorem bind {x : Prog α} {r : Except Exc α} {f : α → Prog β} {g : α → Except Exc β}
    (hx : GSim W F x r) (hf : ∀ a, GSim W F (f a) (g a)) : GSim W F (x >>= f) (r >>= g) := by
  intro F' hF
  refine wp.bind ((hx F' hF).mono fun W' r' h => ?_)
  obtain ⟨rfl, F'', h'', rfl⟩ := h
  cases r' with
  | error e => exact ⟨rfl, F'', h'', rfl⟩
  | ok a =>
    refine (hf a F'' fun x hx => h'' x (hF x hx)).mono fun W' r' h => ?_
    obtain ⟨h1, F3, h3, h4⟩ := h
    exact ⟨h1, F3, fun x hx => h3 x (h'' x hx), h4⟩

theorem mono {p : Prog α} {r : Except Exc α} {F' : Nat → Prop} (h : GSim W F p r)
    (hF : ∀ x, F x → F' x) : GSim W F' p r := fun F'' h' => h F'' fun x hx => h' x (hF x hx)

theorem attrs {r : Nat} {f : Attrs → Prog β} {res : Except Exc β} (hd : W.dom r)
    (hf : ∀ a, (¬ W.S r → a = W.c0 r) → (F r → Attrs.getD a innerTable [] ≠ []) →
      GSim W F (f a) res) : GSim W F (Th.attributes r >>= f) res := by
  intro F' hF
  exact ⟨hd, fun a h1 h2 => hf a h1 (fun h => h2 (hF r h)) F' hF⟩

theorem attrs_const {r : Nat} {a : Attrs} {f : Attrs → Prog β} {res : Except Exc β}
    (ha : W.dom r ∧ ¬ W.S r ∧ W.c0 r = a) (hf : GSim W F (f a) res) :
    GSim W F (Th.attributes r >>= f) res :=
  attrs ha.1 fun a' h1 _ => by rw [h1 ha.2.1, ha.2.2]; exact hf

end GSim

theorem gmi_sim {W : World} {F : Nat → Prop} {r : Nat} {a : Attrs} (value : Str)
    (ha : W.dom r ∧ ¬ W.S r ∧ W.c0 r = a) :
    GSim W F (Th.miConvert value r) (.ok (miConvert value a)) := by
  unfold Th.miConvert miConvert
  dsimp only
  split
  · exact GSim.ok _
  · split
    · exact GSim.ok _
    · have : GSim W F (Th.getMathVariant r) (.ok (getMathVariant a)) := by
        unfold Th.getMathVariant getMathVariant Attrs.getD
        refine GSim.attrs_const ha ?_
        split
        · rename_i e; rw [e]; exact GSim.ok _
        · refine GSim.attrs_const ha ?_
          split
          · rename_i e; rw [e]; exact GSim.ok _
          · rename_i e
            refine GSim.attrs_const ha ?_
            cases e' : Dict.get? a c!"mathvariant" with
            | none => exact absurd e' e
            | some v => exact GSim.ok _
      exact GSim.bind (g := fun v => .ok (wrapInMathVariant _ v)) this fun _ => GSim.ok _

theorem gmtext_sim {W : World} {F : Nat → Prop} {r : Nat} {a : Attrs} (value : Str)
    (ha : W.dom r ∧ ¬ W.S r ∧ W.c0 r = a) :
    GSim W F (Th.mtextConvert value r) (.ok (mtextConvert value a)) := by
  have hr : ∀ p, GSim W F (Th.mtextRun r p) (.ok (if p.2 then
      textCommandApply (Attrs.getD a c!"mathvariant" []) p.1 else miConvert p.1 [])) := by
    intro p
    unfold Th.mtextRun
    split
    · exact GSim.attrs_const ha (GSim.ok _)
    · exact GSim.ok _
  have : ∀ ps, GSim W F (Th.mtextRuns r ps) (.ok (ps.map fun p => if p.2 then
      textCommandApply (Attrs.getD a c!"mathvariant" []) p.1 else miConvert p.1 [])) := by
    intro ps
    induction ps with
    | nil => exact GSim.ok _
    | cons p ps ih =>
      rw [Th.mtextRuns]
      refine GSim.bind (g := fun s => (.ok (s :: _))) (hr p) fun s => ?_
      exact GSim.bind (g := fun ss => .ok (s :: ss)) ih fun ss => GSim.ok _
  exact GSim.bind (g := fun ss => .ok ss.flatten) (this _) fun _ => GSim.ok _

mutual
/-- All references of an element satisfy `P`. -/
def RefsP (P : Nat → Prop) : Elem → Prop
  | .mk _ _ r cs => P r ∧ RefsPL P cs
def RefsPL (P : Nat → Prop) : List Elem → Prop
  | [] => True
  | e :: es => RefsP P e ∧ RefsPL P es
end

mutual
theorem RefsP.mono {P P' : Nat → Prop} (h : ∀ r, P r → P' r) (e : Elem) (he : RefsP P e) :
    RefsP P' e := by
  obtain ⟨n, v, r, cs⟩ := e
  rw [RefsP] at he ⊢
  exact ⟨h r he.1, RefsPL.mono h cs he.2⟩
theorem RefsPL.mono {P P' : Nat → Prop} (h : ∀ r, P r → P' r) (es : List Elem)
    (he : RefsPL P es) : RefsPL P' es := by
  match es with
  | [] => simp [RefsPL]
  | e :: es =>
    rw [RefsPL] at he ⊢
    exact ⟨RefsP.mono h e he.1, RefsPL.mono h es he.2⟩
end

mutual
theorem WfE.congrP {S S' P : Nat → Prop} (hS : ∀ r, P r → (S r ↔ S' r))
    (e : Elem) (b : Bool) (hr : RefsP P e) (h : WfE S b e) : WfE S' b e := by
  obtain ⟨n, v, r, cs⟩ := e
  rw [RefsP] at hr
  rw [WfE] at h ⊢
  refine ⟨?_, WfEs.congrP hS cs _ hr.2 h.2⟩
  have := hS r hr.1
  have h1 := h.1
  split
  · rename_i hc; rw [if_pos hc] at h1; exact this.1 h1
  · rename_i hc; rw [if_neg hc] at h1; exact fun h' => h1 (this.2 h')
theorem WfEs.congrP {S S' P : Nat → Prop} (hS : ∀ r, P r → (S r ↔ S' r))
    (es : List Elem) (b : Bool) (hr : RefsPL P es) (h : WfEs S b es) : WfEs S' b es := by
  match es with
  | [] => simp [WfEs]
  | e :: es =>
    rw [RefsPL] at hr
    rw [WfEs] at h ⊢
    exact ⟨WfE.congrP hS e b hr.1 h.1, WfEs.congrP hS es b hr.2 h.2⟩
end

mutual
theorem view_congrP {c c' : Nat → Attrs} {P : Nat → Prop} (hc : ∀ r, P r → c r = c' r)
    (e : Elem) (hr : RefsP P e) : view c e = view c' e := by
  obtain ⟨n, v, r, cs⟩ := e
  rw [RefsP] at hr
  rw [view, view, hc r hr.1, views_congrP hc cs hr.2]
theorem views_congrP {c c' : Nat → Attrs} {P : Nat → Prop} (hc : ∀ r, P r → c r = c' r)
    (es : List Elem) (hr : RefsPL P es) : views c es = views c' es := by
  match es with
  | [] => simp [views]
  | e :: es =>
    rw [RefsPL] at hr
    rw [views, views, view_congrP hc e hr.1, views_congrP hc es hr.2]
end

mutual
theorem RefsP.tables {P : Nat → Prop} (e : Elem) (h : RefsP P e) : ∀ r ∈ tableRefs e, P r := by
  obtain ⟨n, v, r, cs⟩ := e
  rw [RefsP] at h
  intro x hx
  simp only [tableRefs, List.mem_append] at hx
  rcases hx with hx | hx
  · split at hx
    · simp only [List.mem_singleton] at hx; subst hx; exact h.1
    · simp at hx
  · exact RefsPL.tables cs h.2 x hx
theorem RefsPL.tables {P : Nat → Prop} (es : List Elem) (h : RefsPL P es) :
    ∀ r ∈ tableRefsL es, P r := by
  match es with
  | [] => simp [tableRefsL]
  | e :: es =>
    rw [RefsPL] at h
    intro x hx
    simp only [tableRefsL, List.mem_append] at hx
    rcases hx with hx | hx
    · exact RefsP.tables e h.1 x hx
    · exact RefsPL.tables es h.2 x hx
end

/-! ## Marking -/

mutual
theorem addFlag1_wp {W : World} (e : Elem) : ∀ (F : Nat → Prop), (∀ r ∈ tableRefs e, W.dom r) →
    (∀ r ∈ tableRefs e, W.S r) → wp (Th.addFlag1 c!"mtable" innerTable e)
      (fun W' r => r = .ok () ∧ ∃ F', (∀ x, F x → F' x) ∧ (∀ x ∈ tableRefs e, F' x) ∧
        W' = W.withF F') (W.withF F) := by
  obtain ⟨n, v, r, cs⟩ := e
  intro F hd hS
  rw [Th.addFlag1]
  by_cases hn : n = c!"mtable"
  · subst hn
    simp only [BEq.rfl, if_true]
    refine ⟨⟨rfl, rfl, hd r (by simp [tableRefs]), hS r (by simp [tableRefs])⟩, ?_⟩
    refine (addFlags_wp (W := W) cs (fun x => F x ∨ x = r)
      (fun r hr => hd r (by simp [tableRefs, hr])) fun r hr => hS r (by simp [tableRefs, hr])).mono
      fun W' r' h => ?_
    obtain ⟨h1, F', h2, h3, h4⟩ := h
    refine ⟨h1, F', fun x hx => h2 x (.inl hx), fun x hx => ?_, h4⟩
    simp only [tableRefs, if_true, List.mem_append, List.mem_singleton] at hx
    rcases hx with hx | hx
    · exact h2 x (.inr hx)
    · exact h3 x hx
  · rw [if_neg (by simpa using hn)]
    refine (addFlags_wp (W := W) cs F
      (fun r hr => hd r (by simp [tableRefs, hr])) fun r hr => hS r (by simp [tableRefs, hr])).mono
      fun W' r' h => ?_
    obtain ⟨h1, F', h2, h3, h4⟩ := h
    refine ⟨h1, F', h2, fun x hx => ?_, h4⟩
    simp only [tableRefs, if_neg hn, List.nil_append] at hx
    exact h3 x hx
theorem addFlags_wp {W : World} (es : List Elem) : ∀ (F : Nat → Prop),
    (∀ r ∈ tableRefsL es, W.dom r) → (∀ r ∈ tableRefsL es, W.S r) →
    wp (Th.addFlagRecursiveIfName c!"mtable" innerTable es)
      (fun W' r => r = .ok () ∧ ∃ F', (∀ x, F x → F' x) ∧ (∀ x ∈ tableRefsL es, F' x) ∧
        W' = W.withF F') (W.withF F) := by
  intro F hd hS
  match es with
  | [] =>
    rw [Th.addFlagRecursiveIfName]
    exact ⟨rfl, F, fun _ h => h, by simp [tableRefsL], rfl⟩
  | e :: es =>
    rw [Th.addFlagRecursiveIfName]
    refine wp.bind ((addFlag1_wp (W := W) e F (fun r hr => hd r (by simp [tableRefsL, hr]))
      fun r hr => hS r (by simp [tableRefsL, hr])).mono fun W' r' h => ?_)
    obtain ⟨rfl, F1, h1, h2, rfl⟩ := h
    refine (addFlags_wp (W := W) es F1 (fun r hr => hd r (by simp [tableRefsL, hr]))
      fun r hr => hS r (by simp [tableRefsL, hr])).mono fun W' r' h => ?_
    obtain ⟨h3, F2, h4, h5, h6⟩ := h
    refine ⟨h3, F2, fun x hx => h4 x (h1 x hx), fun x hx => ?_, h6⟩
    simp only [tableRefsL, List.mem_append] at hx
    rcases hx with hx | hx
    · exact h4 x (h2 x hx)
    · exact h5 x hx
end

/-! ## Simulation of lists of children -/

/-- Children of programs and pure children that correspond. -/
inductive GKids (W : World) (F : Nat → Prop) : List Th.Kid → List PKid → Prop where
  | nil : GKids W F [] []
  | cons {k : Th.Kid} {pk : PKid} {ks : List Th.Kid} {pks : List PKid} :
      pk.1 = view W.c0 k.1 → GSim W F k.2 pk.2 → GKids W F ks pks → GKids W F (k :: ks) (pk :: pks)

namespace GKids
variable {W : World} {F : Nat → Prop}

theorem length {ks : List Th.Kid} {pks : List PKid} (h : GKids W F ks pks) :
    ks.length = pks.length := by
  induction h with
  | nil => rfl
  | cons _ _ _ ih => simp [ih]

theorem run {ks : List Th.Kid} {pks : List PKid} (h : GKids W F ks pks) :
    GSim W F (Th.runKids ks) (seqAll pks) := by
  induction h with
  | nil => exact GSim.ok _
  | cons _ h2 _ ih => exact GSim.bind h2 fun a => GSim.bind ih fun b => GSim.ok _

theorem views {ks : List Th.Kid} {pks : List PKid} (h : GKids W F ks pks) :
    pks.map (·.1) = views W.c0 (ks.map (·.1)) := by
  induction h with
  | nil => simp [Verif.views]
  | cons h1 _ _ ih => simp [Verif.views, h1, ih]

theorem inv_nil {pks : List PKid} (h : GKids W F [] pks) : pks = [] := by cases h; rfl

theorem inv_cons {k : Th.Kid} {ks : List Th.Kid} {pks : List PKid} (h : GKids W F (k :: ks) pks) :
    ∃ pk pks', pks = pk :: pks' ∧ pk.1 = view W.c0 k.1 ∧ GSim W F k.2 pk.2 ∧ GKids W F ks pks' := by
  cases h with
  | cons a b c => exact ⟨_, _, rfl, a, b, c⟩
end GKids

theorem gbase_sim {W : World} {F : Nat → Prop} {k : Th.Kid} {pk : PKid}
    (h1 : pk.1 = view W.c0 k.1) (h2 : GSim W F k.2 pk.2) : GSim W F (Th.handleBaseChild k) (pbase pk) := by
  unfold Th.handleBaseChild pbase
  refine GSim.bind h2 fun a => ?_
  rw [h1, view_children_length]
  split <;> exact GSim.ok _

theorem gscript_sim {W : World} {F : Nat → Prop} {k : Th.Kid} {r : Res} {f : Str → Prog Str} {g : Str → Res}
    (h : GSim W F k.2 r) (hf : ∀ s, GSim W F (f (bracketWrap s)) (g s)) :
    GSim W F (Th.handleScriptChild k >>= f) (r >>= g) := by
  have h1 := GSim.bind h hf
  unfold Th.handleScriptChild
  rw [Prog.bind_eq, Prog.bind_eq] at *
  have e : ∀ p : Prog Str, (p.bind fun a => pure (bracketWrap a)).bind f =
      p.bind fun s => f (bracketWrap s) := by
    intro p
    induction p with
    | pure a => rfl
    | throw e => rfl
    | alloc a k ih => simp only [Prog.bind, ih]
    | read r k ih => simp only [Prog.bind, ih]
    | setItem r key v p ih => simp only [Prog.bind, ih]
  rw [e]
  exact h1

theorem gpair_sim {W : World} {F : Nat → Prop} {k1 k2 : Th.Kid} {pk1 pk2 : PKid} (p : Str)
    (h1 : GSim W F k1.2 pk1.2) (h2 : GSim W F k2.2 pk2.2) :
    GSim W F (Th.scriptPair p k1 k2) (ppair p pk1 pk2) :=
  GSim.bind h1 fun _ => GSim.bind h2 fun _ => GSim.ok _

theorem gisPre_eq {W : World} {k : Th.Kid} {pk : PKid} (h1 : pk.1 = view W.c0 k.1) :
    pIsPre pk = Th.isPrescripts k := by
  unfold pIsPre Th.isPrescripts; rw [h1, view_name]

theorem gpre_sim {W : World} {F : Nat → Prop} {ks : List Th.Kid} {pks : List PKid}
    (h : GKids W F ks pks) : GSim W F (Th.prescriptLatex ks) (pprescript pks) := by
  cases h with
  | nil => exact GSim.ok _
  | cons a0 b0 h =>
  cases h with
  | nil => exact GSim.ok _
  | cons a1 b1 h =>
  cases h with
  | nil => exact GSim.ok _
  | cons a2 b2 h =>
  cases h with
  | nil => exact GSim.ok _
  | cons a3 b3 h =>
    simp only [Th.prescriptLatex, pprescript, gisPre_eq a1, gisPre_eq a3]
    split
    · exact gpair_sim _ b2 b3
    · cases h with
      | nil => exact GSim.ok _
      | cons a4 b4 h =>
      cases h with
      | nil => exact GSim.ok _
      | cons a5 b5 h =>
        dsimp only
        split
        · exact gpair_sim _ b4 b5
        · exact GSim.ok _

theorem gpost_sim {W : World} {F : Nat → Prop} {ks : List Th.Kid} {pks : List PKid}
    (h : GKids W F ks pks) : GSim W F (Th.postscriptLatex ks) (ppostscript pks) := by
  cases h with
  | nil => exact GSim.ok _
  | cons a0 b0 h =>
  cases h with
  | nil => exact GSim.ok _
  | cons a1 b1 h =>
  cases h with
  | nil => exact GSim.ok _
  | cons a2 b2 h =>
    simp only [Th.postscriptLatex, ppostscript, gisPre_eq a1]
    split
    · exact GSim.ok _
    · exact gpair_sim _ b1 b2

/-- The converter of one node has the result `pnode`. -/
theorem gconstruct_sim {W : World} {F : Nat → Prop} {b : Bool} {name value : Str}
    {aref : Nat} {cs : List Elem} {kids : List Th.Kid} {pkids : List PKid}
    (hd : W.dom aref) (hdT : ∀ r ∈ tableRefsL cs, W.dom r)
    (hS : if name = c!"mtable" ∧ b = true then W.S aref ∧ F aref else ¬ W.S aref)
    (hT : classify name = .mtable → ∀ r ∈ tableRefsL cs, W.S r)
    (hk : ∀ F', (∀ r, F r → F' r) → (classify name = .mtable → ∀ r ∈ tableRefsL cs, F' r) →
      GKids W F' kids pkids) :
    GSim W F (Th.construct (classify name) name value aref cs kids >>= id)
      (pnode (classify name) b name value (W.c0 aref) pkids) := by
  by_cases hmt : classify name = .mtable
  · -- tables
    have hb : (b = true ∧ F aref) ∨ (b = false ∧ ¬ W.S aref) := by
      have hname := (classify_mtable name).1 hmt
      cases b <;> simp_all
    rw [hmt]
    intro F0 hF0
    refine wp.bind (wp.bind ((addFlags_wp (W := W) cs F0 hdT (hT hmt)).mono fun W' r' h => ?_))
    obtain ⟨rfl, F1, h1, h2, rfl⟩ := h
    have hk' := hk F1 (fun r hr => h1 r (hF0 r hr)) fun _ => h2
    have hsim : GSim W F1 (Th.mtableConvert aref kids)
        (pnode .mtable b name value (W.c0 aref) pkids) := by
      refine GSim.bind hk'.run fun ss => GSim.attrs hd fun a ha hm => ?_
      rcases hb with ⟨rfl, hF⟩ | ⟨rfl, hnS⟩
      · have := hm (h1 _ (hF0 _ hF))
        rw [if_pos this, if_pos (.inl rfl)]
        exact GSim.ok _
      · rw [ha hnS]
        by_cases hi : Attrs.getD (W.c0 aref) innerTable [] = []
        · simp [hi]; exact GSim.ok _
        · simp [hi]; exact GSim.ok _
    refine (hsim F1 fun _ h => h).mono fun W' r' h => ?_
    obtain ⟨h3, F2, h4, h5⟩ := h
    exact ⟨h3, F2, fun x hx => h4 x (h1 x hx), h5⟩
  · replace hk := hk F (fun r hr => hr) (fun h => absurd h hmt)
    have hname : name ≠ c!"mtable" := fun h => hmt ((classify_mtable name).2 h)
    have hnS : ¬ W.S aref := by simpa [hname] using hS
    have ha : W.dom aref ∧ ¬ W.S aref ∧ W.c0 aref = W.c0 aref := ⟨hd, hnS, rfl⟩
    have hlen := hk.length
    generalize hkind : classify name = kind at *
    cases kind with
    | mtable => exact absurd rfl hmt
    | math => exact GSim.bind hk.run fun _ => GSim.ok _
    | mi => exact gmi_sim value ha
    | mo => exact GSim.ok _
    | mn => exact GSim.ok _
    | msqrt => exact GSim.bind hk.run fun _ => GSim.ok _
    | mfenced =>
      show GSim W F (Th.attributes aref >>= fun a1 => Th.attributes aref >>= fun a2 =>
        Th.attributes aref >>= fun a3 => Th.mfencedConvert (Attrs.getD a1 c!"open" [])
        (Attrs.getD a2 c!"close" []) ((Attrs.getD a3 c!"separators" []).map (fun c => [c])) kids) _
      refine GSim.attrs_const ha (GSim.attrs_const ha (GSim.attrs_const ha ?_))
      refine GSim.bind hk.run fun ss => ?_
      rw [hk.views, pHasRel_views]
      split <;> exact GSim.ok _
    | mfrac =>
      rcases kids with _ | ⟨k0, _ | ⟨k1, _ | ⟨k2, ks⟩⟩⟩
      · cases hk.inv_nil; exact GSim.err _
      · obtain ⟨p0, _, rfl, a0, b0, hk⟩ := hk.inv_cons
        cases hk.inv_nil; exact GSim.err _
      · obtain ⟨p0, _, rfl, a0, b0, hk⟩ := hk.inv_cons
        obtain ⟨p1, _, rfl, a1, b1, hk⟩ := hk.inv_cons
        cases hk.inv_nil
        refine GSim.bind b0 fun _ => GSim.bind b1 fun _ => ?_
        refine GSim.attrs_const ha ?_
        split <;> exact GSim.ok _
      · obtain ⟨p0, _, rfl, a0, b0, hk⟩ := hk.inv_cons
        obtain ⟨p1, _, rfl, a1, b1, hk⟩ := hk.inv_cons
        obtain ⟨p2, _, rfl, a2, b2, hk⟩ := hk.inv_cons
        show GSim W F (.throw (.invalidChildren name 2 _ c!"exactly")) (.error (.invalidChildren name 2 _ c!"exactly"))
        rw [hlen]; exact GSim.err _
    | mroot =>
      rcases kids with _ | ⟨k0, _ | ⟨k1, _ | ⟨k2, ks⟩⟩⟩
      · cases hk.inv_nil; exact GSim.err _
      · obtain ⟨p0, _, rfl, a0, b0, hk⟩ := hk.inv_cons
        cases hk.inv_nil; exact GSim.err _
      · obtain ⟨p0, _, rfl, a0, b0, hk⟩ := hk.inv_cons
        obtain ⟨p1, _, rfl, a1, b1, hk⟩ := hk.inv_cons
        cases hk.inv_nil
        exact GSim.bind b0 fun _ => GSim.bind b1 fun _ => GSim.ok _
      · obtain ⟨p0, _, rfl, a0, b0, hk⟩ := hk.inv_cons
        obtain ⟨p1, _, rfl, a1, b1, hk⟩ := hk.inv_cons
        obtain ⟨p2, _, rfl, a2, b2, hk⟩ := hk.inv_cons
        show GSim W F (.throw (.invalidChildren name 2 _ c!"exactly")) (.error (.invalidChildren name 2 _ c!"exactly"))
        rw [hlen]; exact GSim.err _
    | maction =>
      show GSim W F (Th.mactionConvert aref kids) _
      unfold Th.mactionConvert
      refine GSim.attrs_const (r := aref) (a := W.c0 aref) ha ?_
      by_cases hc : Attrs.getD (W.c0 aref) c!"actiontype" [] = c!"toggle" ∨
          Attrs.getD (W.c0 aref) c!"actiontype" [] = []
      · simp only [pnode, hc, if_true]
        exact GSim.bind hk.run fun _ => GSim.ok _
      · simp only [pnode, hc, if_false]
        cases hk with
        | nil => exact GSim.err _
        | cons a0 b0 hk => exact b0
    | menclose =>
      refine GSim.attrs_const (r := aref) (a := W.c0 aref) (f := fun a => Th.mencloseConvert
        (Attrs.getD a c!"notation" c!"longdiv") kids) ha ?_
      exact GSim.bind hk.run fun _ => GSim.ok _
    | merror => exact GSim.bind hk.run fun _ => GSim.ok _
    | void => exact GSim.ok _
    | msup =>
      rcases kids with _ | ⟨k0, _ | ⟨k1, _ | ⟨k2, ks⟩⟩⟩
      · cases hk.inv_nil; exact GSim.err _
      · obtain ⟨p0, _, rfl, a0, b0, hk⟩ := hk.inv_cons
        cases hk.inv_nil; exact GSim.err _
      · obtain ⟨p0, _, rfl, a0, b0, hk⟩ := hk.inv_cons
        obtain ⟨p1, _, rfl, a1, b1, hk⟩ := hk.inv_cons
        cases hk.inv_nil
        exact GSim.bind (gbase_sim a0 b0) fun _ => gscript_sim b1 fun _ => GSim.ok _
      · obtain ⟨p0, _, rfl, a0, b0, hk⟩ := hk.inv_cons
        obtain ⟨p1, _, rfl, a1, b1, hk⟩ := hk.inv_cons
        obtain ⟨p2, _, rfl, a2, b2, hk⟩ := hk.inv_cons
        show GSim W F (.throw (.invalidChildren name 2 _ c!"exactly")) (.error (.invalidChildren name 2 _ c!"exactly"))
        rw [hlen]; exact GSim.err _
    | msub =>
      rcases kids with _ | ⟨k0, _ | ⟨k1, _ | ⟨k2, ks⟩⟩⟩
      · cases hk.inv_nil; exact GSim.err _
      · obtain ⟨p0, _, rfl, a0, b0, hk⟩ := hk.inv_cons
        cases hk.inv_nil; exact GSim.err _
      · obtain ⟨p0, _, rfl, a0, b0, hk⟩ := hk.inv_cons
        obtain ⟨p1, _, rfl, a1, b1, hk⟩ := hk.inv_cons
        cases hk.inv_nil
        exact GSim.bind (gbase_sim a0 b0) fun _ => gscript_sim b1 fun _ => GSim.ok _
      · obtain ⟨p0, _, rfl, a0, b0, hk⟩ := hk.inv_cons
        obtain ⟨p1, _, rfl, a1, b1, hk⟩ := hk.inv_cons
        obtain ⟨p2, _, rfl, a2, b2, hk⟩ := hk.inv_cons
        show GSim W F (.throw (.invalidChildren name 2 _ c!"exactly")) (.error (.invalidChildren name 2 _ c!"exactly"))
        rw [hlen]; exact GSim.err _
    | msubsup =>
      rcases kids with _ | ⟨k0, _ | ⟨k1, _ | ⟨k2, _ | ⟨k3, ks⟩⟩⟩⟩
      · cases hk.inv_nil; exact GSim.err _
      · obtain ⟨p0, _, rfl, a0, b0, hk⟩ := hk.inv_cons
        cases hk.inv_nil; exact GSim.err _
      · obtain ⟨p0, _, rfl, a0, b0, hk⟩ := hk.inv_cons
        obtain ⟨p1, _, rfl, a1, b1, hk⟩ := hk.inv_cons
        cases hk.inv_nil; exact GSim.err _
      · obtain ⟨p0, _, rfl, a0, b0, hk⟩ := hk.inv_cons
        obtain ⟨p1, _, rfl, a1, b1, hk⟩ := hk.inv_cons
        obtain ⟨p2, _, rfl, a2, b2, hk⟩ := hk.inv_cons
        cases hk.inv_nil
        exact GSim.bind (gbase_sim a0 b0) fun _ => gscript_sim b1 fun _ => gscript_sim b2 fun _ => GSim.ok _
      · obtain ⟨p0, _, rfl, a0, b0, hk⟩ := hk.inv_cons
        obtain ⟨p1, _, rfl, a1, b1, hk⟩ := hk.inv_cons
        obtain ⟨p2, _, rfl, a2, b2, hk⟩ := hk.inv_cons
        obtain ⟨p3, _, rfl, a3, b3, hk⟩ := hk.inv_cons
        show GSim W F (.throw (.invalidChildren name 3 _ c!"exactly")) (.error (.invalidChildren name 3 _ c!"exactly"))
        rw [hlen]; exact GSim.err _
    | mmultiscripts =>
      rcases kids with _ | ⟨k0, _ | ⟨k1, _ | ⟨k2, ks⟩⟩⟩
      · cases hk.inv_nil; exact GSim.err _
      · obtain ⟨p0, _, rfl, a0, b0, hk⟩ := hk.inv_cons
        cases hk.inv_nil; exact GSim.err _
      · obtain ⟨p0, _, rfl, a0, b0, hk⟩ := hk.inv_cons
        obtain ⟨p1, _, rfl, a1, b1, hk⟩ := hk.inv_cons
        cases hk.inv_nil; exact GSim.err _
      · have hpre := gpre_sim hk
        have hpost := gpost_sim hk
        obtain ⟨p0, _, rfl, a0, b0, hk⟩ := hk.inv_cons
        obtain ⟨p1, _, rfl, a1, b1, hk⟩ := hk.inv_cons
        obtain ⟨p2, _, rfl, a2, b2, hk⟩ := hk.inv_cons
        exact GSim.bind b0 fun _ => GSim.bind hpre fun _ => GSim.bind hpost fun _ => GSim.ok _
    | mtext => exact gmtext_sim value ha
    | munderover =>
      rcases kids with _ | ⟨k0, _ | ⟨k1, _ | ⟨k2, _ | ⟨k3, ks⟩⟩⟩⟩
      · cases hk.inv_nil; exact GSim.err _
      · obtain ⟨p0, _, rfl, a0, b0, hk⟩ := hk.inv_cons
        cases hk.inv_nil; exact GSim.err _
      · obtain ⟨p0, _, rfl, a0, b0, hk⟩ := hk.inv_cons
        obtain ⟨p1, _, rfl, a1, b1, hk⟩ := hk.inv_cons
        cases hk.inv_nil; exact GSim.err _
      · obtain ⟨p0, _, rfl, a0, b0, hk⟩ := hk.inv_cons
        obtain ⟨p1, _, rfl, a1, b1, hk⟩ := hk.inv_cons
        obtain ⟨p2, _, rfl, a2, b2, hk⟩ := hk.inv_cons
        cases hk.inv_nil
        exact GSim.bind b0 fun _ => GSim.bind b1 fun _ => GSim.bind b2 fun _ => GSim.ok _
      · obtain ⟨p0, _, rfl, a0, b0, hk⟩ := hk.inv_cons
        obtain ⟨p1, _, rfl, a1, b1, hk⟩ := hk.inv_cons
        obtain ⟨p2, _, rfl, a2, b2, hk⟩ := hk.inv_cons
        obtain ⟨p3, _, rfl, a3, b3, hk⟩ := hk.inv_cons
        show GSim W F (.throw (.invalidChildren name 3 _ c!"exactly")) (.error (.invalidChildren name 3 _ c!"exactly"))
        rw [hlen]; exact GSim.err _
    | mtr => exact GSim.bind hk.run fun _ => GSim.ok _
    | underOver =>
      rcases kids with _ | ⟨k0, _ | ⟨k1, _ | ⟨k2, ks⟩⟩⟩
      · cases hk.inv_nil; exact GSim.err _
      · obtain ⟨p0, _, rfl, a0, b0, hk⟩ := hk.inv_cons
        cases hk.inv_nil; exact GSim.err _
      · obtain ⟨p0, _, rfl, a0, b0, hk⟩ := hk.inv_cons
        obtain ⟨p1, _, rfl, a1, b1, hk⟩ := hk.inv_cons
        cases hk.inv_nil
        exact GSim.bind b0 fun _ => GSim.bind b1 fun _ => GSim.ok _
      · obtain ⟨p0, _, rfl, a0, b0, hk⟩ := hk.inv_cons
        obtain ⟨p1, _, rfl, a1, b1, hk⟩ := hk.inv_cons
        obtain ⟨p2, _, rfl, a2, b2, hk⟩ := hk.inv_cons
        show GSim W F (.throw (.invalidChildren name 2 _ c!"exactly")) (.error (.invalidChildren name 2 _ c!"exactly"))
        rw [hlen]; exact GSim.err _
    | spacing => exact GSim.bind hk.run fun _ => GSim.ok _



mutual
/-- Converting an element gives `pconv`, whatever other threads do. -/
theorem gconvertElem_sim {W : World} (e : Elem) :
    ∀ (F : Nat → Prop) (b : Bool), RefsP W.dom e → WfE W.S b e →
      (b = true → ∀ r ∈ tableRefs e, F r) →
      GSim W F (Th.convertElem e) (pconv b (view W.c0 e)) := by
  obtain ⟨n, v, r, cs⟩ := e
  intro F b hd hw hF
  rw [WfE] at hw
  rw [RefsP] at hd
  have key := gconstruct_sim (W := W) (F := F) (b := b) (name := n) (value := v)
    (aref := r) (cs := cs) (kids := Th.kidsOf cs)
    (pkids := pkids (b || n == c!"mtable") (views W.c0 cs)) hd.1 (RefsPL.tables cs hd.2)
    (by
      by_cases hc : n = c!"mtable" ∧ b = true
      · have h1 := hw.1
        rw [if_pos hc] at h1 ⊢
        exact ⟨h1, hF hc.2 r (by simp [tableRefs, hc.1])⟩
      · have h1 := hw.1
        rw [if_neg hc] at h1 ⊢
        exact h1)
    (by
      intro hm x hx
      have hn := (classify_mtable n).1 hm
      have h2 := hw.2
      rw [hn] at h2
      simp only [BEq.rfl, Bool.or_true] at h2
      exact tableRefsL_sub cs (WfEs.toT cs _ h2) x hx)
    (by
      intro F' hFF' hm
      refine gkids_sim cs F' _ hd.2 hw.2 ?_
      intro hb x hx
      by_cases hn : n = c!"mtable"
      · exact hm ((classify_mtable n).2 hn) x hx
      · have : b = true := by simpa [hn] using hb
        exact hFF' x (hF this x (by simp [tableRefs, hx])))
  rw [view, pconv]
  exact key
theorem gkids_sim {W : World} (es : List Elem) :
    ∀ (F : Nat → Prop) (b : Bool), RefsPL W.dom es → WfEs W.S b es →
      (b = true → ∀ r ∈ tableRefsL es, F r) →
      GKids W F (Th.kidsOf es) (pkids b (views W.c0 es)) := by
  intro F b hd hw hF
  match es with
  | [] => simp only [Th.kidsOf, views, pkids]; exact .nil
  | e :: es =>
    rw [WfEs] at hw
    rw [RefsPL] at hd
    simp only [Th.kidsOf, views, pkids]
    refine .cons rfl ?_ (gkids_sim es F b hd.2 hw.2 fun hb x hx => hF hb x (by simp [tableRefsL, hx]))
    exact gconvertElem_sim e F b hd.1 hw.1 fun hb x hx => hF hb x (by simp [tableRefsL, hx])
end

/-! ## Building elements -/

mutual
theorem buildElem_wp (n : Node) : ∀ (W : World) (b : Bool), wp (Th.buildElem n)
    (fun W' r => World.Le W W' ∧ ∃ e?, r = .ok e? ∧
      match e? with
      | none => toPElem n = none
      | some e => toPElem n = some (view W'.c0 e) ∧ RefsP W'.dom e ∧ WfE W'.S b e) W := by
  intro W b
  match n with
  | .text _ =>
    rw [Th.buildElem]
    · exact ⟨.refl _, none, rfl, by simp [toPElem]⟩
    · simp
  | .cdata _ =>
    rw [Th.buildElem]
    · exact ⟨.refl _, none, rfl, by simp [toPElem]⟩
    · simp
  | .comment _ =>
    rw [Th.buildElem]
    · exact ⟨.refl _, none, rfl, by simp [toPElem]⟩
    · simp
  | .pi _ _ =>
    rw [Th.buildElem]
    · exact ⟨.refl _, none, rfl, by simp [toPElem]⟩
    · simp
  | .elem tag attrs cs =>
    rw [Th.buildElem]
    refine ⟨tag = c!"mtable" ∧ b = true, fun r hr => ?_⟩
    refine wp.bind ((buildElems_wp cs (W.add r (convertAttributes attrs)
      (tag = c!"mtable" ∧ b = true)) (b || tag == c!"mtable")).mono fun W' r' h => ?_)
    obtain ⟨hle, es, rfl, h1, h2, h3⟩ := h
    obtain ⟨g1, g2, g3⟩ := hle r (.inl rfl)
    simp only [World.add, if_true] at g2 g3
    refine ⟨(World.le_add hr _ _).trans hle, _, rfl, ?_, ?_, ?_⟩
    · simp only [toPElem, view, ← g3, h1]
    · rw [RefsP]; exact ⟨g1, h2⟩
    · rw [WfE]
      refine ⟨?_, h3⟩
      split
      · rename_i hc; exact g2.1 hc
      · rename_i hc; exact fun hc' => hc (g2.2 hc')
theorem buildElems_wp (ns : List Node) : ∀ (W : World) (b : Bool), wp (Th.buildElems ns)
    (fun W' r => World.Le W W' ∧ ∃ es, r = .ok es ∧
      toPElems ns = views W'.c0 es ∧ RefsPL W'.dom es ∧ WfEs W'.S b es) W := by
  intro W b
  match ns with
  | [] =>
    rw [Th.buildElems]
    exact ⟨.refl _, [], rfl, by simp [toPElems, views], by simp [RefsPL], by simp [WfEs]⟩
  | n :: ns =>
    rw [Th.buildElems]
    refine wp.bind ((buildElem_wp n W b).mono fun W1 r1 h => ?_)
    obtain ⟨hle1, e?, rfl, he⟩ := h
    refine wp.bind ((buildElems_wp ns W1 b).mono fun W2 r2 h => ?_)
    obtain ⟨hle2, es, rfl, h1, h2, h3⟩ := h
    refine ⟨hle1.trans hle2, _, rfl, ?_⟩
    cases e? with
    | none =>
      simp only at he
      simp only [toPElems, he]
      exact ⟨h1, h2, h3⟩
    | some e =>
      simp only at he
      obtain ⟨g1, g2, g3⟩ := he
      refine ⟨?_, ?_, ?_⟩
      · simp only [toPElems, g1, views, h1, List.cons.injEq, and_true]
        exact view_congrP (fun r hr => (hle2 r hr).2.2) e g2
      · rw [RefsPL]
        exact ⟨RefsP.mono (fun r hr => (hle2 r hr).1) e g2, h2⟩
      · rw [WfEs]
        exact ⟨WfE.congrP (fun r hr => (hle2 r hr).2.1) e b g2 g3, h3⟩
end

end Verif
