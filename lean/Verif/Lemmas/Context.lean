import Verif.Spec.Context
import Verif.Props.Rules

/-! # Congruence of the conversion -/

namespace Verif
open Spec

/-- Lists related element by element. -/
inductive All2 (R : Node → Node → Prop) : List Node → List Node → Prop
  | nil : All2 R [] []
  | cons {x y xs ys} : R x y → All2 R xs ys → All2 R (x :: xs) (y :: ys)

theorem All2.of_zip {R : Node → Node → Prop} : ∀ {xs ys : List Node}, xs.length = ys.length →
    (∀ p ∈ xs.zip ys, R p.1 p.2) → All2 R xs ys
  | [], [], _, _ => .nil
  | [], _ :: _, h, _ => by simp at h
  | _ :: _, [], h, _ => by simp at h
  | x :: xs, y :: ys, hl, h => by
    rw [List.zip_cons_cons] at h
    exact .cons (h (x, y) List.mem_cons_self)
      (All2.of_zip (by simpa using hl) fun p hp => h p (List.mem_cons_of_mem _ hp))

theorem All2.length {R : Node → Node → Prop} {xs ys : List Node} (h : All2 R xs ys) :
    xs.length = ys.length := by
  induction h with
  | nil => rfl
  | cons _ _ ih => simp [ih]

theorem All2.refl {R : Node → Node → Prop} (hr : ∀ n, R n n) : ∀ xs : List Node, All2 R xs xs
  | [] => .nil
  | x :: xs => .cons (hr x) (All2.refl hr xs)

theorem All2.append {R : Node → Node → Prop} {a b c d : List Node} (h : All2 R a b)
    (h' : All2 R c d) : All2 R (a ++ c) (b ++ d) := by
  induction h with
  | nil => exact h'
  | cons h _ ih => exact .cons h ih

theorem All2.mono {R S : Node → Node → Prop} (hRS : ∀ n n', R n n' → S n n') {a b : List Node}
    (h : All2 R a b) : All2 S a b := by
  induction h with
  | nil => exact .nil
  | cons h _ ih => exact .cons (hRS _ _ h) ih

theorem All2.head {R : Node → Node → Prop} {a b : List Node} (h : All2 R a b) {x x' : Node}
    (h1 : a.head? = some x) (h2 : b.head? = some x') : R x x' := by
  cases h with
  | nil => cases h1
  | cons h _ => cases h1; cases h2; exact h

/-- There is a table in the node. -/
def tabled (n : Node) : Bool := (elementsOf n).any (tagIs c!"mtable")

/-- The base of a script. -/
def baseLatex (b : Bool) (n : Node) : Except Exc Str := (latexIn b n).map (scriptBase n)

/-- Interchangeable except as bases of scripts. -/
structure Weak (n n' : Node) : Prop where
  elem : n.isElem = n'.isElem
  latex : ∀ b, latexIn b n = latexIn b n'
  pre : isPre n = isPre n'
  table : tabled n = tabled n'
  maths : (maths [n]).map (latexIn false) = (maths [n']).map (latexIn false)

/-- Interchangeable. -/
structure Strong (n n' : Node) : Prop extends Weak n n' where
  base : ∀ b, baseLatex b n = baseLatex b n'

theorem Weak.refl (n : Node) : Weak n n := ⟨rfl, fun _ => rfl, rfl, rfl, rfl⟩
theorem Weak.symm {n n' : Node} (h : Weak n n') : Weak n' n :=
  ⟨h.elem.symm, fun b => (h.latex b).symm, h.pre.symm, h.table.symm, h.maths.symm⟩
theorem Weak.trans {n n' n'' : Node} (h : Weak n n') (h' : Weak n' n'') : Weak n n'' :=
  ⟨h.elem.trans h'.elem, fun b => (h.latex b).trans (h'.latex b), h.pre.trans h'.pre,
    h.table.trans h'.table, h.maths.trans h'.maths⟩
theorem Strong.refl (n : Node) : Strong n n := ⟨.refl n, fun _ => rfl⟩
theorem Strong.symm {n n' : Node} (h : Strong n n') : Strong n' n :=
  ⟨h.toWeak.symm, fun b => (h.base b).symm⟩
theorem Strong.trans {n n' n'' : Node} (h : Strong n n') (h' : Strong n' n'') : Strong n n'' :=
  ⟨h.toWeak.trans h'.toWeak, fun b => (h.base b).trans (h'.base b)⟩

theorem latexIn_phantom {n : Node} (h : tagIs c!"mphantom" n = true) (b : Bool) :
    latexIn b n = .ok [] := by
  cases n with
  | elem tag A cs =>
    simp only [tagIs, beq_iff_eq] at h
    subst h
    exact latexIn_mphantom b A cs
  | _ => rfl

theorem baseLatex_eq {n n' : Node} (h : ∀ b, latexIn b n = latexIn b n') (hb : SameBase n n')
    (b : Bool) : baseLatex b n = baseLatex b n' := by
  unfold baseLatex
  rcases hb with hb | ⟨h1, h2⟩
  · rw [h b]
    congr 1
    funext s
    unfold wide at hb
    simp only [scriptBase, hb]
  · rw [latexIn_phantom h1, latexIn_phantom h2]
    simp [Except.map, scriptBase, parensIfLong]

/-! ## One element -/

theorem seqAll_cons (b : Bool) (n : Node) (ns : List Node) : seqAll (outcomes b (n :: ns)) =
    (do let s ← latexIn b n; let ss ← seqAll (outcomes b ns); return s :: ss) := rfl

theorem seqAll_congr {xs ys : List Node} (h : All2 Weak xs ys) (b : Bool) :
    seqAll (outcomes b xs) = seqAll (outcomes b ys) := by
  induction h with
  | nil => rfl
  | cons hx _ ih => rw [seqAll_cons, seqAll_cons, hx.latex, ih]

theorem tabled_elements : ∀ cs : List Node, (elements cs).any (tagIs c!"mtable") =
    (kids cs).any tabled
  | [] => rfl
  | n :: ns => by
    rw [elements, List.any_append, tabled_elements ns]
    cases n <;> simp [kids, Node.isElem, elementsOf, tabled]

theorem tabled_congr {cs cs' : List Node} (h : All2 Weak (kids cs) (kids cs')) :
    (elements cs).any (tagIs c!"mtable") = (elements cs').any (tagIs c!"mtable") := by
  rw [tabled_elements, tabled_elements]
  generalize kids cs = K at h
  generalize kids cs' = K' at h
  induction h with
  | nil => rfl
  | cons hx _ ih => rw [List.any_cons, List.any_cons, hx.table, ih]

theorem hasTable_congr {cs cs' : List Node} (h : All2 Weak (kids cs) (kids cs')) :
    HasTable cs ↔ HasTable cs' := by
  have := tabled_congr h
  unfold HasTable
  rw [← List.any_eq_true, ← List.any_eq_true, this]

/-- A script on a base. -/
theorem base_bind (b : Bool) (x : Node) (f : Str → Except Exc Str) :
    (do let sx ← latexIn b x; f (scriptBase x sx)) = (do let sx ← baseLatex b x; f sx) := by
  unfold baseLatex
  cases latexIn b x <;> rfl

theorem latexIn_congr {tag : Str} {A A' : List (Str × Str)} {cs cs' : List Node}
    (hA : ∀ k ∈ recognised tag, attr A k = attr A' k)
    (ht : tag ∈ tokenTags → strip (tokenData cs) = strip (tokenData cs'))
    (hk : All2 Weak (kids cs) (kids cs'))
    (hb : tag ∈ scriptTags → ∀ x x', (kids cs).head? = some x → (kids cs').head? = some x' →
      ∀ b, baseLatex b x = baseLatex b x') (b : Bool) :
    latexIn b (.elem tag A cs) = latexIn b (.elem tag A' cs') := by
  have hs := seqAll_congr hk
  by_cases hst : tag ∈ structured
  · simp only [structured, List.mem_cons, List.not_mem_nil, or_false] at hst
    rcases hst with rfl | rfl | rfl | rfl | rfl | rfl | rfl | rfl | rfl | rfl | rfl | rfl | rfl |
      rfl | rfl | rfl | rfl | rfl | rfl | rfl | rfl | rfl
    · rw [latexIn_math, latexIn_math, hs]
    · rw [latexIn_mi, latexIn_mi, hA c!"mathvariant" (by decide), ← normalize_strip (tokenData cs),
        ht (by decide), normalize_strip]
    · rw [latexIn_mo, latexIn_mo, ← normalize_strip (tokenData cs), ht (by decide), normalize_strip]
    · rw [latexIn_mn, latexIn_mn, ht (by decide)]
    · rw [latexIn_msqrt, latexIn_msqrt, hs]
    · have ho := hA c!"open" (by decide)
      have hc := hA c!"close" (by decide)
      have hsep := hA c!"separators" (by decide)
      by_cases h : HasTable cs
      · have : Decidable (HasTable cs) := .isTrue h
        have h' := (hasTable_congr hk).1 h
        have : Decidable (HasTable cs') := .isTrue h'
        rw [latexIn_mfenced, latexIn_mfenced, hs, ho, hc]
        simp only [h, h', if_true]
      · have : Decidable (HasTable cs) := .isFalse h
        have h' : ¬ HasTable cs' := fun h' => h ((hasTable_congr hk).2 h')
        have : Decidable (HasTable cs') := .isFalse h'
        rw [latexIn_mfenced, latexIn_mfenced, hs, ho, hc, hsep]
        simp only [h, h', if_false]
    · have hv := hA c!"bevelled" (by decide)
      rw [latexIn_mfrac, latexIn_mfrac, hv]
      revert hk; generalize kids cs = K; generalize kids cs' = K'; intro hk
      rcases hk with _ | ⟨h1, _ | ⟨h2, _ | ⟨h3, h4⟩⟩⟩
      · rfl
      · rfl
      · simp only [h1.latex, h2.latex]
      · simp only [List.length_cons, h4.length]
    · rw [latexIn_mroot, latexIn_mroot]
      revert hk; generalize kids cs = K; generalize kids cs' = K'; intro hk
      rcases hk with _ | ⟨h1, _ | ⟨h2, _ | ⟨h3, h4⟩⟩⟩
      · rfl
      · rfl
      · simp only [h1.latex, h2.latex]
      · simp only [List.length_cons, h4.length]
    · rw [latexIn_maction, latexIn_maction, hA c!"actiontype" (by decide), hs]
      revert hk; generalize kids cs = K; generalize kids cs' = K'; intro hk
      rcases hk with _ | ⟨h1, _⟩
      · rfl
      · simp only [h1.latex]
    · rw [latexIn_menclose, latexIn_menclose, hA c!"notation" (by decide), hs]
    · rw [latexIn_merror, latexIn_merror, hs]
    · rw [latexIn_mphantom, latexIn_mphantom]
    · rw [latexIn_msup, latexIn_msup]
      have hb := hb (by decide)
      revert hk hb; generalize kids cs = K; generalize kids cs' = K'; intro hk hb
      rcases hk with _ | @⟨x, x', _, _, h1, _ | @⟨y, y', _, _, h2, _ | ⟨h3, h4⟩⟩⟩
      · rfl
      · rfl
      · have hb := hb _ _ rfl rfl b
        have e := base_bind b x fun s => do
          let se ← latexIn b y; return s ++ c!"^" ++ braces se
        have e' := base_bind b x' fun s => do
          let se ← latexIn b y; return s ++ c!"^" ++ braces se
        simp only [← h2.latex]
        rw [e, e', hb]
      · simp only [List.length_cons, h4.length]
    · rw [latexIn_msub, latexIn_msub]
      have hb := hb (by decide)
      revert hk hb; generalize kids cs = K; generalize kids cs' = K'; intro hk hb
      rcases hk with _ | @⟨x, x', _, _, h1, _ | @⟨y, y', _, _, h2, _ | ⟨h3, h4⟩⟩⟩
      · rfl
      · rfl
      · have hb := hb _ _ rfl rfl b
        have e := base_bind b x fun s => do
          let se ← latexIn b y; return s ++ c!"_" ++ braces se
        have e' := base_bind b x' fun s => do
          let se ← latexIn b y; return s ++ c!"_" ++ braces se
        simp only [← h2.latex]
        rw [e, e', hb]
      · simp only [List.length_cons, h4.length]
    · rw [latexIn_msubsup, latexIn_msubsup]
      have hb := hb (by decide)
      revert hk hb; generalize kids cs = K; generalize kids cs' = K'; intro hk hb
      rcases hk with _ | @⟨x, x', _, _, h1, _ | @⟨y, y', _, _, h2, _ | @⟨z, z', _, _, h3, _ | ⟨h4, h5⟩⟩⟩⟩
      · rfl
      · rfl
      · rfl
      · have hb := hb _ _ rfl rfl b
        have e := base_bind b x fun s => do
          let sd ← latexIn b y; let se ← latexIn b z
          return s ++ c!"_" ++ braces sd ++ c!"^" ++ braces se
        have e' := base_bind b x' fun s => do
          let sd ← latexIn b y; let se ← latexIn b z
          return s ++ c!"_" ++ braces sd ++ c!"^" ++ braces se
        simp only [← h2.latex, ← h3.latex]
        rw [e, e', hb]
      · simp only [List.length_cons, h5.length]
    · rw [latexIn_mmultiscripts, latexIn_mmultiscripts]
      have hp : ∀ lead, pairLatex b lead (prePair (kids cs)) = pairLatex b lead (prePair (kids cs')) := by
        intro lead
        revert hk; generalize kids cs = K; generalize kids cs' = K'; intro hk
        rcases hk with _ | ⟨h1, _ | ⟨h2, _ | ⟨h3, _ | ⟨h4, _ | ⟨h5, _ | ⟨h6, h7⟩⟩⟩⟩⟩⟩
        · rfl
        · rfl
        · rfl
        · rfl
        · simp only [prePair, h2.pre]; split
          · simp only [pairLatex, h3.latex, h4.latex]
          · rfl
        · simp only [prePair, h2.pre]; split
          · simp only [pairLatex, h3.latex, h4.latex]
          · rfl
        · simp only [prePair, h2.pre, h4.pre]; split
          · simp only [pairLatex, h3.latex, h4.latex]
          · split
            · simp only [pairLatex, h5.latex, h6.latex]
            · rfl
      have hq : ∀ lead, pairLatex b lead (postPair (kids cs)) = pairLatex b lead (postPair (kids cs')) := by
        intro lead
        revert hk; generalize kids cs = K; generalize kids cs' = K'; intro hk
        rcases hk with _ | ⟨h1, _ | ⟨h2, _ | ⟨h3, _⟩⟩⟩
        · rfl
        · rfl
        · rfl
        · simp only [postPair, h2.pre]; split
          · rfl
          · simp only [pairLatex, h2.latex, h3.latex]
      revert hk hp hq; generalize kids cs = K; generalize kids cs' = K'; intro hk hp hq
      rcases hk with _ | ⟨h1, _ | ⟨h2, _ | ⟨h3, h4⟩⟩⟩
      · rfl
      · rfl
      · rfl
      · simp only [h1.latex, hp, hq]
    · have e : ∀ cs A, latexIn b (.elem c!"mtext" A cs) = .ok (mtextConvert (strip (tokenData cs))
          (convertAttributes A)) := fun cs A => latexIn_mtext b A cs
      have hv := hA c!"mathvariant" (by decide)
      have hd := ht (by decide)
      rw [e, e, hd]
      congr 1
      rw [mtextConvert_iff, getD_attr, hv, ← getD_attr, ← mtextConvert_iff]
    · rw [latexIn_munderover, latexIn_munderover]
      revert hk; generalize kids cs = K; generalize kids cs' = K'; intro hk
      rcases hk with _ | ⟨h1, _ | ⟨h2, _ | ⟨h3, _ | ⟨h4, h5⟩⟩⟩⟩
      · rfl
      · rfl
      · rfl
      · simp only [h1.latex, h2.latex, h3.latex]
      · simp only [List.length_cons, h5.length]
    · rw [latexIn_mtable, latexIn_mtable, hA c!"innerTable" (by decide), hs]
    · rw [latexIn_mtr, latexIn_mtr, hs]
    · rw [latexIn_mover, latexIn_mover]
      revert hk; generalize kids cs = K; generalize kids cs' = K'; intro hk
      rcases hk with _ | ⟨h1, _ | ⟨h2, _ | ⟨h3, h4⟩⟩⟩
      · rfl
      · rfl
      · simp only [h1.latex, h2.latex]
      · simp only [List.length_cons, h4.length]
    · rw [latexIn_munder, latexIn_munder]
      revert hk; generalize kids cs = K; generalize kids cs' = K'; intro hk
      rcases hk with _ | ⟨h1, _ | ⟨h2, _ | ⟨h3, h4⟩⟩⟩
      · rfl
      · rfl
      · simp only [h1.latex, h2.latex]
      · simp only [List.length_cons, h4.length]
  · rw [latexIn_row b A cs hst, latexIn_row b A' cs' hst, hs]

/-! ## Documents -/

theorem maths_cons (n : Node) (ns : List Node) : maths (n :: ns) = maths [n] ++ maths ns := by
  simp [maths, elements]

theorem maths_kids : ∀ cs : List Node, maths cs = (kids cs).flatMap fun n => maths [n]
  | [] => rfl
  | n :: ns => by
    rw [maths_cons, maths_kids ns]
    cases n with
    | elem tag A cs => rfl
    | _ => rfl

theorem maths_congr {cs cs' : List Node} (h : All2 Weak (kids cs) (kids cs')) :
    (maths cs).map (latexIn false) = (maths cs').map (latexIn false) := by
  rw [maths_kids, maths_kids]
  generalize kids cs = K at h
  generalize kids cs' = K' at h
  induction h with
  | nil => rfl
  | cons hx _ ih =>
    rw [List.flatMap_cons, List.flatMap_cons, List.map_append, List.map_append, hx.maths, ih]

theorem maths_elem (tag : Str) (A : List (Str × Str)) (cs : List Node) :
    maths [.elem tag A cs] = (if tag = c!"math" then [.elem tag A cs] else []) ++ maths cs := by
  simp only [maths, elements, elementsOf, List.append_nil, List.filter_cons, isMath]
  by_cases h : tag = c!"math" <;> simp [h]

theorem docResult_congr {d d' : Doc} (h : All2 Weak (kids d) (kids d')) :
    docResult d = docResult d' := by
  rw [docResult_firstOrAll, docResult_firstOrAll, maths_congr h]

/-- Congruence of one element, in full. -/
theorem strong_elem {tag : Str} {A A' : List (Str × Str)} {cs cs' : List Node}
    (hA : ∀ k ∈ recognised tag, attr A k = attr A' k)
    (ht : tag ∈ tokenTags → strip (tokenData cs) = strip (tokenData cs'))
    (hk : All2 Weak (kids cs) (kids cs'))
    (hb : tag ∈ scriptTags → ∀ x x', (kids cs).head? = some x → (kids cs').head? = some x' →
      ∀ b, baseLatex b x = baseLatex b x') :
    Strong (.elem tag A cs) (.elem tag A' cs') := by
  have hl := latexIn_congr hA ht hk hb
  refine ⟨⟨rfl, hl, rfl, ?_, ?_⟩, ?_⟩
  · simp only [tabled, elementsOf, List.any_cons]
    rw [tabled_congr hk]; rfl
  · rw [maths_elem, maths_elem, List.map_append, List.map_append, maths_congr hk]
    congr 1
    split
    · simp [hl false]
    · rfl
  · refine baseLatex_eq hl (.inl ?_)
    unfold wide
    rw [childElems, childElems, hk.length]

theorem kids_all2 {R : Node → Node → Prop} (he : ∀ {n n'}, R n n' → n.isElem = n'.isElem) :
    ∀ {cs cs' : List Node}, All2 R cs cs' → All2 R (kids cs) (kids cs') := by
  intro cs cs' h
  induction h with
  | nil => exact .nil
  | @cons x y xs ys h _ ih =>
    have := he h
    unfold kids at *
    rw [List.filter_cons, List.filter_cons, this]
    split
    · exact .cons h ih
    · exact ih

/-- `R` relates elements only. -/
def OnElems (R : Node → Node → Prop) : Prop := ∀ n n', R n n' → n.isElem = true ∧ n'.isElem = true

theorem tokenData_congr {cs cs' : List Node} {S : Node → Node → Prop}
    (hS : ∀ {n n'}, S n n' → n.isElem = n'.isElem) (hS' : ∀ {n n'}, S n n' → n.isElem = false → n = n')
    (h : All2 S cs cs') : tokenData cs = tokenData cs' := by
  by_cases he : ∃ n ∈ cs, n.isElem = true
  · have he' : ∃ n ∈ cs', n.isElem = true := by
      clear hS'
      induction h with
      | nil => simp at he
      | cons hx _ ih =>
        obtain ⟨n, hn, e⟩ := he
        rcases List.mem_cons.1 hn with rfl | hn
        · exact ⟨_, List.mem_cons_self, (hS hx) ▸ e⟩
        · obtain ⟨m, hm, e'⟩ := ih ⟨n, hn, e⟩
          exact ⟨m, List.mem_cons_of_mem _ hm, e'⟩
    unfold tokenData
    rw [if_pos he, if_pos he']
  · have : cs = cs' := by
      induction h with
      | nil => rfl
      | @cons x y xs ys hx _ ih =>
        have h1 : x.isElem = false := by
          cases hx : x.isElem with
          | false => rfl
          | true => exact absurd ⟨x, List.mem_cons_self, hx⟩ he
        rw [hS' hx h1, ih fun ⟨n, hn, e⟩ => he ⟨n, List.mem_cons_of_mem _ hn, e⟩]
    rw [this]

theorem Spec.Cong.strong {R : Node → Node → Prop} (hR : ∀ n n', R n n' → Strong n n')
    (hE : OnElems R) {n n' : Node} (h : Cong R n n') :
    Strong n n' ∧ (n.isElem = false → n = n') := by
  induction h with
  | base h => exact ⟨hR _ _ h, fun e => by rw [(hE _ _ h).1] at e; cases e⟩
  | refl => exact ⟨.refl _, fun _ => rfl⟩
  | symm _ ih => exact ⟨ih.1.symm, fun e => (ih.2 (ih.1.elem ▸ e)).symm⟩
  | trans _ _ ih1 ih2 =>
    exact ⟨ih1.1.trans ih2.1, fun e => (ih1.2 e).trans (ih2.2 (ih1.1.elem ▸ e))⟩
  | elem hl _ ih =>
    refine ⟨?_, fun e => by cases e⟩
    have ha := All2.of_zip (R := fun n n' => Strong n n' ∧ (n.isElem = false → n = n')) hl ih
    have hk := kids_all2 (fun h => h.1.elem) ha
    refine strong_elem (fun _ _ => rfl) (fun _ => ?_) ?_ ?_
    · rw [tokenData_congr (fun h => h.1.elem) (fun h => h.2) ha]
    · exact hk.mono fun _ _ h => h.1.toWeak
    · exact fun _ x x' h1 h2 b => (hk.head h1 h2).1.base b

theorem Spec.Clos.weak {R : Node → Node → Prop} (hR : ∀ n n', R n n' → Weak n n')
    (hE : OnElems R) {n n' : Node} (h : Clos R n n') :
    Weak n n' ∧ (n.isElem = false → n = n') := by
  induction h with
  | base h => exact ⟨hR _ _ h, fun e => by rw [(hE _ _ h).1] at e; cases e⟩
  | refl => exact ⟨.refl _, fun _ => rfl⟩
  | symm _ ih => exact ⟨ih.1.symm, fun e => (ih.2 (ih.1.elem ▸ e)).symm⟩
  | trans _ _ ih1 ih2 =>
    exact ⟨ih1.1.trans ih2.1, fun e => (ih1.2 e).trans (ih2.2 (ih1.1.elem ▸ e))⟩
  | elem hl _ hb ih =>
    refine ⟨?_, fun e => by cases e⟩
    have ha := All2.of_zip (R := fun n n' => Weak n n' ∧ (n.isElem = false → n = n')) hl ih
    have hk := kids_all2 (fun h => h.1.elem) ha
    refine (strong_elem (fun _ _ => rfl) (fun _ => ?_) ?_ ?_).toWeak
    · rw [tokenData_congr (fun h => h.1.elem) (fun h => h.2) ha]
    · exact hk.mono fun _ _ h => h.1
    · exact fun ht x x' h1 h2 b => baseLatex_eq (hk.head h1 h2).1.latex (hb ht x x' h1 h2) b

/-- Replacements that nothing notices do not change the result for a document. -/
theorem docResult_cong {R : Node → Node → Prop} (hR : ∀ n n', R n n' → Strong n n')
    (hE : OnElems R) {d d' : Doc} (hl : d.length = d'.length)
    (h : ∀ p ∈ d.zip d', Cong R p.1 p.2) : docResult d = docResult d' := by
  refine docResult_congr (kids_all2 (fun h => h.elem) (All2.of_zip hl fun p hp => ?_))
  exact ((h p hp).strong hR hE).1.toWeak

theorem docResult_clos {R : Node → Node → Prop} (hR : ∀ n n', R n n' → Weak n n')
    (hE : OnElems R) {d d' : Doc} (hl : d.length = d'.length)
    (h : ∀ p ∈ d.zip d', Clos R p.1 p.2) : docResult d = docResult d' := by
  refine docResult_congr (kids_all2 (fun h => h.elem) (All2.of_zip hl fun p hp => ?_))
  exact ((h p hp).weak hR hE).1

end Verif
