import Verif.Spec.Place
import Verif.Props.Context
import Verif.Props.Means
import Verif.Props.Doc

/-!
# C100: a change of one part changes nothing else
-/

namespace Verif
open Spec

/-- The result changes only where the element is. -/
def Local (b b' : Bool) (G : Node → Node) : Prop :=
  ∀ n0 t0, n0.isElem = true → latexIn b (G n0) = .ok t0 → ∃ pre post s0, latexIn b' n0 = .ok s0 ∧ t0 = pre ++ s0 ++ post ∧
    ∀ n s, n.isElem = true → SameTables n n0 → latexIn b' n = .ok s → latexIn b (G n) = .ok (pre ++ s ++ post)

/-- A function that copies every one of its arguments. -/
def Copies (f : List Str → Str) : Prop := ∀ s1 s2, ∃ pre post, ∀ s, f (s1 ++ s :: s2) = pre ++ s ++ post

theorem Copies.around {f : List Str → Str} (h : Copies f) (u v : Str) : Copies fun ss => u ++ f ss ++ v := by
  intro s1 s2
  obtain ⟨pre, post, e⟩ := h s1 s2
  exact ⟨u ++ pre, post ++ v, fun s => by simp only [e, List.append_assoc]⟩

theorem copies_join (sep : Str) : Copies (join sep) := by
  intro s1 s2
  induction s1 with
  | nil =>
    cases s2 with
    | nil => exact ⟨[], [], fun s => by simp [join]⟩
    | cons t s2 => exact ⟨[], sep ++ join sep (t :: s2), fun s => by simp [join]⟩
  | cons t s1 ih =>
    obtain ⟨pre, post, e⟩ := ih
    refine ⟨t ++ sep ++ pre, post, fun s => ?_⟩
    have : join sep (t :: (s1 ++ s :: s2)) = t ++ sep ++ join sep (s1 ++ s :: s2) := by
      cases s1 <;> simp [join]
    rw [List.cons_append, this, e]
    simp only [List.append_assoc]

theorem copies_flatten : Copies List.flatten := fun s1 s2 =>
  ⟨s1.flatten, s2.flatten, fun s => by simp⟩

theorem copies_interleave (sep : Nat → Str) : Copies (interleave sep) := by
  intro s1 s2
  induction s1 generalizing sep with
  | nil =>
    cases s2 with
    | nil => exact ⟨[], [], fun s => by simp [interleave]⟩
    | cons t s2 => exact ⟨[], sep 0 ++ interleave (fun i => sep (i + 1)) (t :: s2), fun s => by simp [interleave]⟩
  | cons t s1 ih =>
    obtain ⟨pre, post, e⟩ := ih fun i => sep (i + 1)
    refine ⟨t ++ sep 0 ++ pre, post, fun s => ?_⟩
    have : interleave sep (t :: (s1 ++ s :: s2)) = t ++ sep 0 ++ interleave (fun i => sep (i + 1)) (s1 ++ s :: s2) := by
      cases s1 <;> simp [interleave]
    rw [List.cons_append, this, e]
    simp only [List.append_assoc]

theorem copies_environment (env : Str) : Copies (environment env) :=
  fun s1 s2 => by

    obtain ⟨pre, post, e⟩ := copies_flatten.around (c!"\\begin{" ++ env ++ c!"}\n") (c!"\n\\end{" ++ env ++ c!"}") s1 s2
    exact ⟨pre, post, fun s => by rw [← e s]; simp only [environment, List.append_assoc]⟩

theorem copies_matrix (op close : Str) : Copies (matrix op close) := by
  unfold Spec.matrix
  split
  · exact copies_environment _
  · split
    · exact copies_environment _
    · intro s1 s2
      obtain ⟨pre, post, e⟩ := (copies_environment c!"matrix").around (c!"\\left" ++ op) (c!"\\right" ++ close) s1 s2
      exact ⟨pre, post, fun s => by rw [← e s]; simp only [List.append_assoc]⟩

theorem copies_fence (op close seps : Str) : Copies (fence op close seps) := by
  intro s1 s2
  obtain ⟨pre, post, e⟩ := (copies_interleave (separator seps)).around (c!"\\left" ++ orElse op c!"(")
    (c!"\\right" ++ orElse close c!")") s1 s2
  exact ⟨pre, post, fun s => by rw [← e s]; simp only [fence, List.append_assoc]⟩

/-! ## One step -/

theorem kids_around {n : Node} (hn : n.isElem = true) (before after : List Node) :
    kids (before ++ n :: after) = kids before ++ n :: kids after := by
  simp [kids, hn]

theorem bind_ok {α β : Type} {x : Except Exc α} {f : α → Except Exc β} {v : β} (h : (do let a ← x; f a) = .ok v) :
    ∃ a, x = .ok a ∧ f a = .ok v := by
  cases x with
  | error e => cases h
  | ok a => exact ⟨a, rfl, h⟩

/-- One of the elements of a list that is converted. -/
theorem seqAll_around {b : Bool} {ns ms : List Node} {n0 : Node} {ss : List Str}
    (h : seqAll (outcomes b (ns ++ n0 :: ms)) = .ok ss) : ∃ s1 s0 s2, ss = s1 ++ s0 :: s2 ∧ latexIn b n0 = .ok s0 ∧
      ∀ n s, latexIn b n = .ok s → seqAll (outcomes b (ns ++ n :: ms)) = .ok (s1 ++ s :: s2) := by
  rw [seqAll_append] at h
  obtain ⟨s1, h1, h⟩ := bind_ok h
  obtain ⟨ts, h2, h⟩ := bind_ok h
  rw [seqAll_cons] at h2
  obtain ⟨s0, h3, h2⟩ := bind_ok h2
  obtain ⟨s2, h4, h2⟩ := bind_ok h2
  cases h2
  cases h
  refine ⟨s1, s0, s2, rfl, h3, fun n s hs => ?_⟩
  rw [seqAll_append, seqAll_cons, h1, hs, h4]
  rfl

theorem local_list {b b' : Bool} {tag : Str} {A : List (Str × Str)} {before after : List Node}
    (h : ∀ n0, ∃ f, Copies f ∧ ∀ n, n.isElem = true → SameTables n n0 →
      latexIn b (.elem tag A (before ++ n :: after)) = (do return f (← seqAll (outcomes b' (kids (before ++ n :: after)))))) :
    Local b b' fun n => .elem tag A (before ++ n :: after) := by
  intro n0 t0 hn0 h0
  obtain ⟨f, hf, hG⟩ := h n0
  simp only [hG n0 hn0 Iff.rfl, kids_around hn0] at h0
  obtain ⟨ss, h1, h2⟩ := bind_ok h0
  obtain ⟨s1, s0, s2, rfl, h3, h4⟩ := seqAll_around h1
  obtain ⟨pre, post, e⟩ := hf s1 s2
  cases h2
  refine ⟨pre, post, s0, h3, e s0, fun n s hn ht hs => ?_⟩
  simp only [hG n hn ht, kids_around hn, h4 n s hs]
  exact congrArg _ (e s)

theorem local_two {b : Bool} {tag : Str} {A : List (Str × Str)} {before after : List Node} {g : Node → Str → Str → Str}
    (h2 : ∀ cs x e, kids cs = [x, e] → latexIn b (.elem tag A cs) =
      (do let sx ← latexIn b x; let se ← latexIn b e; return g x sx se))
    (hno : ∀ cs, (∀ x e, kids cs ≠ [x, e]) → ∃ err, latexIn b (.elem tag A cs) = .error err)
    (hl : kids before = [] → ∀ se, ∃ pre post, ∀ n s, g n s se = pre ++ s ++ post)
    (hr : kids before ≠ [] → ∀ x sx, ∃ pre post, ∀ s, g x sx s = pre ++ s ++ post) :
    Local b b fun n => .elem tag A (before ++ n :: after) := by
  intro n0 t0 hn0 h0
  have hk : ∀ n, n.isElem = true → kids (before ++ n :: after) = kids before ++ n :: kids after := fun n hn => kids_around hn _ _
  have ha : ∃ x e, kids (before ++ n0 :: after) = [x, e] := by
    apply Classical.byContradiction
    intro h
    obtain ⟨err, he⟩ := hno _ (fun x e hxe => h ⟨x, e, hxe⟩)
    rw [he] at h0
    cases h0
  obtain ⟨x, e, hxe⟩ := ha
  rw [h2 _ _ _ hxe] at h0
  rw [hk n0 hn0] at hxe
  obtain ⟨sx, h3, h0⟩ := bind_ok h0
  obtain ⟨se, h4, h0⟩ := bind_ok h0
  cases h0
  rcases hb : kids before with _ | ⟨y, ys⟩
  · rw [hb] at hxe
    simp only [List.nil_append, List.cons.injEq] at hxe
    obtain ⟨rfl, hxe⟩ := hxe
    obtain ⟨pre, post, hp⟩ := hl hb se
    refine ⟨pre, post, sx, h3, hp _ _, fun n s hn _ hs => ?_⟩
    simp only [h2 _ n e (by rw [hk n hn, hb, hxe]; rfl), hs, h4]
    exact congrArg _ (hp n s)
  · rw [hb] at hxe
    cases ys with
    | cons z zs => simp at hxe
    | nil =>
      simp only [List.cons_append, List.nil_append, List.cons.injEq] at hxe
      obtain ⟨rfl, rfl, hxe⟩ := hxe
      obtain ⟨pre, post, hp⟩ := hr (by rw [hb]; simp) y sx
      refine ⟨pre, post, se, h4, hp _, fun n s hn _ hs => ?_⟩
      simp only [h2 _ y n (by rw [hk n hn, hb, hxe]; rfl), hs, h3]
      exact congrArg _ (hp s)

theorem local_three {b : Bool} {tag : Str} {A : List (Str × Str)} {before after : List Node} {g : Node → Str → Str → Str → Str}
    (h3 : ∀ cs x d e, kids cs = [x, d, e] → latexIn b (.elem tag A cs) =
      (do let sx ← latexIn b x; let sd ← latexIn b d; let se ← latexIn b e; return g x sx sd se))
    (hno : ∀ cs, (∀ x d e, kids cs ≠ [x, d, e]) → ∃ err, latexIn b (.elem tag A cs) = .error err)
    (hl : kids before = [] → ∀ sd se, ∃ pre post, ∀ n s, g n s sd se = pre ++ s ++ post)
    (hm : kids before ≠ [] → ∀ x sx se, ∃ pre post, ∀ s, g x sx s se = pre ++ s ++ post)
    (hr : kids before ≠ [] → ∀ x sx sd, ∃ pre post, ∀ s, g x sx sd s = pre ++ s ++ post) :
    Local b b fun n => .elem tag A (before ++ n :: after) := by
  intro n0 t0 hn0 h0
  have hk : ∀ n, n.isElem = true → kids (before ++ n :: after) = kids before ++ n :: kids after := fun n hn => kids_around hn _ _
  have ha : ∃ x d e, kids (before ++ n0 :: after) = [x, d, e] := by
    apply Classical.byContradiction
    intro h
    obtain ⟨err, he⟩ := hno _ (fun x d e hxe => h ⟨x, d, e, hxe⟩)
    rw [he] at h0
    cases h0
  obtain ⟨x, d, e, hxe⟩ := ha
  rw [h3 _ _ _ _ hxe] at h0
  rw [hk n0 hn0] at hxe
  obtain ⟨sx, h4, h0⟩ := bind_ok h0
  obtain ⟨sd, h5, h0⟩ := bind_ok h0
  obtain ⟨se, h6, h0⟩ := bind_ok h0
  cases h0
  rcases hb : kids before with _ | ⟨y, ys⟩
  · rw [hb] at hxe
    simp only [List.nil_append, List.cons.injEq] at hxe
    obtain ⟨rfl, hxe⟩ := hxe
    obtain ⟨pre, post, hp⟩ := hl hb sd se
    refine ⟨pre, post, sx, h4, hp _ _, fun n s hn _ hs => ?_⟩
    simp only [h3 _ n d e (by rw [hk n hn, hb, hxe]; rfl), hs, h5, h6]
    exact congrArg _ (hp n s)
  · have hne : kids before ≠ [] := by rw [hb]; simp
    rw [hb] at hxe
    cases ys with
    | nil =>
      simp only [List.cons_append, List.nil_append, List.cons.injEq] at hxe
      obtain ⟨rfl, rfl, hxe⟩ := hxe
      obtain ⟨pre, post, hp⟩ := hm hne y sx se
      refine ⟨pre, post, sd, h5, hp _, fun n s hn _ hs => ?_⟩
      simp only [h3 _ y n e (by rw [hk n hn, hb, hxe]; rfl), hs, h4, h6]
      exact congrArg _ (hp s)
    | cons z zs =>
      cases zs with
      | cons w ws => simp at hxe
      | nil =>
        simp only [List.cons_append, List.nil_append, List.cons.injEq] at hxe
        obtain ⟨rfl, rfl, rfl, hxe⟩ := hxe
        obtain ⟨pre, post, hp⟩ := hr hne y sx sd
        refine ⟨pre, post, se, h6, hp _, fun n s hn _ hs => ?_⟩
        simp only [h3 _ y z n (by rw [hk n hn, hb, hxe]; rfl), hs, h4, h5]
        exact congrArg _ (hp s)

theorem hasTable_append (a b : List Node) : HasTable (a ++ b) ↔ HasTable a ∨ HasTable b := by
  simp only [HasTable, elements_append, List.mem_append]
  constructor
  · rintro ⟨n, h | h, ht⟩
    · exact .inl ⟨n, h, ht⟩
    · exact .inr ⟨n, h, ht⟩
  · rintro (⟨n, h, ht⟩ | ⟨n, h, ht⟩)
    · exact ⟨n, .inl h, ht⟩
    · exact ⟨n, .inr h, ht⟩

theorem hasTable_around {n m : Node} (h : SameTables n m) (before after : List Node) :
    HasTable (before ++ n :: after) ↔ HasTable (before ++ m :: after) := by
  rw [List.append_cons before n, List.append_cons before m, hasTable_append, hasTable_append, hasTable_append, hasTable_append,
    show HasTable [n] ↔ HasTable [m] from h]

theorem hasTable_elem (tag : Str) (A : List (Str × Str)) (cs : List Node) :
    HasTable [.elem tag A cs] ↔ tag = c!"mtable" ∨ HasTable cs := by
  simp only [HasTable, elements, elementsOf, List.append_nil, List.mem_cons]
  constructor
  · rintro ⟨n, rfl | h, ht⟩
    · exact .inl (by simpa [tagIs] using ht)
    · exact .inr ⟨n, h, ht⟩
  · rintro (rfl | ⟨n, h, ht⟩)
    · exact ⟨_, .inl rfl, by simp [tagIs]⟩
    · exact ⟨n, .inr h, ht⟩

theorem step_local {b b' : Bool} {tag : Str} {A : List (Str × Str)} {before : List Node} (h : PlaceStep b b' tag A before)
    (after : List Node) : Local b b' fun n => .elem tag A (before ++ n :: after) := by
  cases h with
  | row ht => exact local_list fun n0 => ⟨_, copies_join c!" ", fun n _ _ => latexIn_row _ _ _ ht⟩
  | content ht =>
    simp only [List.mem_cons, List.not_mem_nil, or_false] at ht
    rcases ht with rfl | rfl | rfl | rfl | rfl
    · refine local_list fun n0 => ⟨fun ss => c!"\\sqrt{" ++ join c!" " ss ++ c!"}", (copies_join c!" ").around _ _, fun n _ _ => ?_⟩
      rw [latexIn_msqrt]
      simp [braces]
    · refine local_list fun n0 => ⟨fun ss => c!"\\color{red}{" ++ join c!" " ss ++ c!"}", (copies_join c!" ").around _ _, fun n _ _ => ?_⟩
      rw [latexIn_merror]
      simp [braces]
    · exact local_list fun n0 => ⟨_, (copies_join c!" ").around _ _, fun n _ _ => latexIn_menclose _ _ _⟩
    · exact local_list fun n0 => ⟨_, copies_join c!" & ", fun n _ _ => latexIn_mtr _ _ _⟩
    · classical
      refine local_list fun n0 => ?_
      by_cases ht : HasTable (before ++ n0 :: after)
      · refine ⟨_, copies_matrix (attr A c!"open") (attr A c!"close"), fun n _ hs => ?_⟩
        rw [latexIn_mfenced]
        simp only [if_pos ((hasTable_around hs before after).2 ht)]
      · refine ⟨_, copies_fence (attr A c!"open") (attr A c!"close") (attr A c!"separators"), fun n _ hs => ?_⟩
        rw [latexIn_mfenced]
        simp only [if_neg fun h => ht ((hasTable_around hs before after).1 h)]
  | table =>
    by_cases hc : b = true ∨ attr A c!"innerTable" ≠ []
    · refine local_list fun n0 => ⟨_, (copies_join c!" \\\\\n").around c!"\\begin{matrix}" c!"\\end{matrix}", fun n _ _ => ?_⟩
      rw [latexIn_mtable]
      simp only [if_pos hc]
    · refine local_list fun n0 => ⟨_, copies_join c!" \\\\\n", fun n _ _ => ?_⟩
      rw [latexIn_mtable]
      simp only [if_neg hc]
  | toggle ht =>
    refine local_list fun n0 => ⟨_, copies_join c!" \\Longrightarrow ", fun n _ _ => ?_⟩
    rw [latexIn_maction, if_pos ht]
  | action ht hb =>
    intro n0 t0 hn0 h0
    have hG : ∀ n, n.isElem = true → latexIn b (.elem c!"maction" A (before ++ n :: after)) = latexIn b n := by
      intro n hn
      rw [latexIn_maction, if_neg ht, kids_around hn, hb]
      rfl
    rw [hG n0 hn0] at h0
    exact ⟨[], [], t0, h0, by simp, fun n s hn _ hs => by simp only [hG n hn, hs, List.nil_append, List.append_nil]⟩
  | frac hv =>
    refine local_two (g := fun _ sx se => c!"\\frac" ++ braces sx ++ braces se) ?_ ?_ ?_ ?_
    · intro cs x e hk
      rw [latexIn_mfrac, hk]
      simp only [hv, ne_eq, not_true_eq_false, if_false]
    · intro cs hk
      rw [latexIn_mfrac]
      split
      · exact absurd ‹_› (hk _ _)
      · exact ⟨_, rfl⟩
    · exact fun _ se => ⟨c!"\\frac{", c!"}" ++ braces se, fun n s => by simp [braces]⟩
    · exact fun _ x sx => ⟨c!"\\frac" ++ braces sx ++ c!"{", c!"}", fun s => by simp [braces]⟩
  | any ht =>
    simp only [List.mem_cons, List.not_mem_nil, or_false] at ht
    rcases ht with rfl | rfl
    · refine local_two (g := fun _ sx se => c!"\\sqrt[" ++ se ++ c!"]" ++ braces sx) ?_ ?_ ?_ ?_
      · intro cs x e hk
        rw [latexIn_mroot, hk]
      · intro cs hk
        rw [latexIn_mroot]
        split
        · exact absurd ‹_› (hk _ _)
        · exact ⟨_, rfl⟩
      · exact fun _ se => ⟨c!"\\sqrt[" ++ se ++ c!"]{", c!"}", fun n s => by simp [braces]⟩
      · exact fun _ x sx => ⟨c!"\\sqrt[", c!"]" ++ braces sx, fun s => by simp [braces]⟩
    · refine local_three (g := fun _ sx sd se => sx ++ c!"_" ++ braces sd ++ c!"^" ++ braces se) ?_ ?_ ?_ ?_ ?_
      · intro cs x d e hk
        rw [latexIn_munderover, hk]
      · intro cs hk
        rw [latexIn_munderover]
        split
        · exact absurd ‹_› (hk _ _ _)
        · exact ⟨_, rfl⟩
      · exact fun _ sd se => ⟨[], c!"_" ++ braces sd ++ c!"^" ++ braces se, fun n s => by simp [braces]⟩
      · exact fun _ x sx se => ⟨sx ++ c!"_{", c!"}^" ++ braces se, fun s => by simp [braces]⟩
      · exact fun _ x sx sd => ⟨sx ++ c!"_" ++ braces sd ++ c!"^{", c!"}", fun s => by simp [braces]⟩
  | script ht hb =>
    simp only [List.mem_cons, List.not_mem_nil, or_false] at ht
    rcases ht with rfl | rfl | rfl
    · refine local_two (g := fun x sx se => scriptBase x sx ++ c!"^" ++ braces se) ?_ ?_ (fun h => absurd h hb) ?_
      · intro cs x e hk
        rw [latexIn_msup, hk]
      · intro cs hk
        rw [latexIn_msup]
        split
        · exact absurd ‹_› (hk _ _)
        · exact ⟨_, rfl⟩
      · exact fun _ x sx => ⟨scriptBase x sx ++ c!"^{", c!"}", fun s => by simp [braces]⟩
    · refine local_two (g := fun x sx se => scriptBase x sx ++ c!"_" ++ braces se) ?_ ?_ (fun h => absurd h hb) ?_
      · intro cs x e hk
        rw [latexIn_msub, hk]
      · intro cs hk
        rw [latexIn_msub]
        split
        · exact absurd ‹_› (hk _ _)
        · exact ⟨_, rfl⟩
      · exact fun _ x sx => ⟨scriptBase x sx ++ c!"_{", c!"}", fun s => by simp [braces]⟩
    · refine local_three (g := fun x sx sd se => scriptBase x sx ++ c!"_" ++ braces sd ++ c!"^" ++ braces se) ?_ ?_
        (fun h => absurd h hb) ?_ ?_
      · intro cs x d e hk
        rw [latexIn_msubsup, hk]
      · intro cs hk
        rw [latexIn_msubsup]
        split
        · exact absurd ‹_› (hk _ _ _)
        · exact ⟨_, rfl⟩
      · exact fun _ x sx se => ⟨scriptBase x sx ++ c!"_{", c!"}^" ++ braces se, fun s => by simp [braces]⟩
      · exact fun _ x sx sd => ⟨scriptBase x sx ++ c!"_" ++ braces sd ++ c!"^{", c!"}", fun s => by simp [braces]⟩
  | base ht hb =>
    have hs : ∀ cmd se, ∃ pre post, ∀ (n : Node) s, stacked cmd s se = pre ++ s ++ post := by
      intro cmd se
      by_cases h : se ∈ accentCommands
      · exact ⟨se ++ c!"{", c!"}", fun n s => by simp [stacked, h, braces]⟩
      · exact ⟨cmd ++ braces se ++ c!"{", c!"}", fun n s => by simp [stacked, h, braces]⟩
    simp only [List.mem_cons, List.not_mem_nil, or_false] at ht
    rcases ht with rfl | rfl
    · refine local_two (g := fun _ sx se => stacked c!"\\underset" sx se) ?_ ?_ (fun _ se => hs _ se) (fun h => absurd hb h)
      · intro cs x e hk
        rw [latexIn_munder, hk]
      · intro cs hk
        rw [latexIn_munder]
        split
        · exact absurd ‹_› (hk _ _)
        · exact ⟨_, rfl⟩
    · refine local_two (g := fun _ sx se => stacked c!"\\overset" sx se) ?_ ?_ (fun _ se => hs _ se) (fun h => absurd hb h)
      · intro cs x e hk
        rw [latexIn_mover, hk]
      · intro cs hk
        rw [latexIn_mover]
        split
        · exact absurd ‹_› (hk _ _)
        · exact ⟨_, rfl⟩

/-! ## Any depth -/

theorem Spec.Place.isElem {b b' : Bool} {F : Node → Node} (h : Place b b' F) {n : Node} (hn : n.isElem = true) :
    (F n).isElem = true := by
  cases h with
  | here => exact hn
  | inside => rfl

theorem Spec.Place.tables {b b' : Bool} {F : Node → Node} (h : Place b b' F) {n m : Node} (hs : SameTables n m) :
    SameTables (F n) (F m) := by
  induction h with
  | here => exact hs
  | @inside _ _ _ tag A before after F _ _ ih =>
    unfold SameTables
    rw [hasTable_elem, hasTable_elem, hasTable_around ih]

/-- **C100** The LaTeX of an element around a place is that of the element at the place, with something before and after it
that does not depend on what is there. -/
theorem C100_element {b b' : Bool} {F : Node → Node} (h : Place b b' F) (n0 : Node) (hn0 : n0.isElem = true) (t0 : Str)
    (h0 : latexIn b (F n0) = .ok t0) : ∃ pre post s0, latexIn b' n0 = .ok s0 ∧ t0 = pre ++ s0 ++ post ∧
      ∀ n s, n.isElem = true → SameTables n n0 → latexIn b' n = .ok s → latexIn b (F n) = .ok (pre ++ s ++ post) := by
  induction h generalizing t0 with
  | here => exact ⟨[], [], t0, h0, by simp, fun n s _ _ hs => by simpa using hs⟩
  | @inside _ _ _ tag A before after F hstep hF ih =>
    obtain ⟨pre, post, s1, h1, rfl, h2⟩ := step_local hstep after (F n0) t0 (hF.isElem hn0) h0
    obtain ⟨pre', post', s0, h3, rfl, h4⟩ := ih s1 h1
    refine ⟨pre ++ pre', post' ++ post, s0, h3, by simp only [List.append_assoc], fun n s hn hs hl => ?_⟩
    rw [h2 (F n) _ (hF.isElem hn) (hF.tables hs) (h4 n s hn hs hl)]
    simp only [List.append_assoc]

/-- **C100** The same of a document with one `math` element: only white space is collapsed afterwards. -/
theorem C100_document {b' : Bool} {F : Node → Node} (h : Place false b' F) (A : List (Str × Str)) (before after : List Node)
    (d0 : Doc) (n0 : Node) (hn0 : n0.isElem = true) (hd0 : maths d0 = [.elem c!"math" A (before ++ F n0 :: after)]) (t0 : Str)
    (h0 : docResult d0 = .ok t0) : ∃ pre post s0, latexIn b' n0 = .ok s0 ∧ t0 = normalize (pre ++ s0 ++ post) ∧
      ∀ d n s, maths d = [.elem c!"math" A (before ++ F n :: after)] → n.isElem = true → SameTables n n0 →
        latexIn b' n = .ok s → docResult d = .ok (normalize (pre ++ s ++ post)) := by
  have hdoc : ∀ d n, maths d = [n] → docResult d = latexIn false n := by
    intro d n hd
    rw [docResult_firstOrAll, hd]
    cases hl : latexIn false n <;> simp [firstOrAll, hl]
  have hm : ∀ n, latexIn false (.elem c!"math" A (before ++ F n :: after)) =
      (do return normalize (← latexIn false (.elem c!"mrow" A (before ++ F n :: after)))) := by
    intro n
    rw [latexIn_math, latexIn_row _ _ _ (by decide)]
    cases seqAll (outcomes false (kids (before ++ F n :: after))) <;> rfl
  rw [hdoc d0 _ hd0, hm] at h0
  obtain ⟨t1, h1, h2⟩ := bind_ok h0
  cases h2
  obtain ⟨pre, post, s0, h3, rfl, h4⟩ := C100_element (Place.inside (tag := c!"mrow") (A := A) (before := before) (after := after)
    (.row (by decide)) h) n0 hn0 t1 h1
  refine ⟨pre, post, s0, h3, rfl, fun d n s hd hn hs hl => ?_⟩
  rw [hdoc d _ hd, hm, h4 n s hn hs hl]
  rfl

/-- **C100** at the API. -/
theorem C100_convert {b' : Bool} {F : Node → Node} (h : Place false b' F) (A : List (Str × Str)) (before after : List Node)
    (env : Env) (x : Str) (d0 : Doc) (hp : ParsesTo env x d0) (n0 : Node) (hn0 : n0.isElem = true)
    (hd0 : maths d0 = [.elem c!"math" A (before ++ F n0 :: after)]) (t0 : Str) (h0 : convert env x = .ok t0) :
    ∃ pre post s0, latexIn b' n0 = .ok s0 ∧ t0 = normalize (pre ++ s0 ++ post) ∧
      ∀ env' x' d n s, ParsesTo env' x' d → maths d = [.elem c!"math" A (before ++ F n :: after)] → n.isElem = true →
        SameTables n n0 → latexIn b' n = .ok s → convert env' x' = .ok (normalize (pre ++ s ++ post)) := by
  rw [hp.convert] at h0
  obtain ⟨pre, post, s0, h1, h2, h3⟩ := C100_document h A before after d0 n0 hn0 hd0 t0 h0
  exact ⟨pre, post, s0, h1, h2, fun env' x' d n s hp' hd hn hs hl => by rw [hp'.convert]; exact h3 d n s hd hn hs hl⟩

/-- The denominator of a fraction in a cell of a table in fences, as the upper script of something. -/
def deepPlace (n : Node) : Node :=
  .elem c!"msup" [] [tokenOf c!"mi" c!"x", .elem c!"mfenced" [] [.elem c!"mtable" [] [.elem c!"mtr" []
    [.elem c!"mtd" [] [tokenOf c!"mi" c!"a"], .elem c!"mtd" [] [.elem c!"mfrac" [] [tokenOf c!"mn" c!"1", n]]]]]]

theorem deepPlace_place : Place false true deepPlace :=
  .inside (tag := c!"msup") (A := []) (before := [tokenOf c!"mi" c!"x"]) (after := []) (.script (by decide) (by decide))
    (.inside (tag := c!"mfenced") (A := []) (before := []) (after := []) (.content (by decide))
      (.inside (tag := c!"mtable") (A := []) (before := []) (after := []) .table
        (.inside (tag := c!"mtr") (A := []) (before := [.elem c!"mtd" [] [tokenOf c!"mi" c!"a"]]) (after := [])
          (.content (by decide))
          (.inside (tag := c!"mtd") (A := []) (before := []) (after := []) (.row (by decide))
            (.inside (tag := c!"mfrac") (A := []) (before := [tokenOf c!"mn" c!"1"]) (after := []) (.frac (by decide)) .here)))))

/-- Two elements at that place. -/
example : latexIn false (deepPlace (tokenOf c!"mi" c!"β")) =
      .ok c!"x^{\\begin{bmatrix}\na & \\frac{1}{\\beta}\n\\end{bmatrix}}" ∧
    latexIn false (deepPlace (.elem c!"msqrt" [] [tokenOf c!"mi" c!"α", tokenOf c!"mn" c!"2"])) =
      .ok c!"x^{\\begin{bmatrix}\na & \\frac{1}{\\sqrt{\\alpha 2}}\n\\end{bmatrix}}" ∧
    SameTables (tokenOf c!"mi" c!"β") (.elem c!"msqrt" [] [tokenOf c!"mi" c!"α", tokenOf c!"mn" c!"2"]) := by
  refine ⟨by decide +kernel, by decide +kernel, ?_⟩
  simp [SameTables, HasTable, elements, elementsOf, tokenOf, tagIs]

theorem not_local {b b' : Bool} {G : Node → Node} (n n' : Node) (s s' t t' : Str) (hn : n.isElem = true) (hn' : n'.isElem = true)
    (hs : SameTables n' n) (h1 : latexIn b' n = .ok s) (h2 : latexIn b' n' = .ok s') (h3 : latexIn b (G n) = .ok t)
    (h4 : latexIn b (G n') = .ok t') (hl : t.length + s'.length ≠ t'.length + s.length) : ¬ Local b b' G := by
  intro h
  obtain ⟨pre, post, s0, e0, e1, e2⟩ := h n t hn h3
  rw [h1] at e0
  cases e0
  have := e2 n' s' hn' hs h2
  rw [h4] at this
  cases this
  subst e1
  apply hl
  simp only [List.length_append]
  omega

/-- A row of two letters. -/
def pairNode : Node := .elem c!"mrow" [] [tokenOf c!"mi" c!"a", tokenOf c!"mi" c!"b"]

/-- **C100** Elsewhere it is not so: what is around the base of a script or a part of a bevelled fraction depends on how long
that is, what is around a script of `mover` on whether that is an accent, and `mphantom` hides everything. -/
theorem C100_elsewhere :
    ¬ Local false false (fun n => .elem c!"msup" [] [n, tokenOf c!"mn" c!"2"]) ∧
    ¬ Local false false (fun n => .elem c!"mfrac" [(c!"bevelled", c!"true")] [n, tokenOf c!"mn" c!"2"]) ∧
    ¬ Local false false (fun n => .elem c!"mover" [] [tokenOf c!"mi" c!"x", n]) ∧
    ¬ Local false false (fun n => .elem c!"mphantom" [] [n]) := by
  have hs : SameTables pairNode (tokenOf c!"mi" c!"x") := by
    simp [SameTables, HasTable, elements, elementsOf, tokenOf, pairNode, tagIs]
  have ht : SameTables (tokenOf c!"mo" c!"^") (tokenOf c!"mi" c!"x") := by
    simp [SameTables, HasTable, elements, elementsOf, tokenOf, tagIs]
  refine ⟨?_, ?_, ?_, ?_⟩
  · exact not_local _ pairNode c!"x" c!"a b" c!"x^{2}" c!"\\left(a b\\right)^{2}" rfl rfl hs (by decide +kernel) (by decide +kernel)
      (by decide +kernel) (by decide +kernel) (by decide)
  · exact not_local _ pairNode c!"x" c!"a b" c!"x/2" c!"\\left(a b\\right)/2" rfl rfl hs (by decide +kernel) (by decide +kernel)
      (by decide +kernel) (by decide +kernel) (by decide)
  · exact not_local _ (tokenOf c!"mo" c!"^") c!"x" c!"\\hat" c!"\\overset{x}{x}" c!"\\hat{x}" rfl rfl ht (by decide +kernel)
      (by decide +kernel) (by decide +kernel) (by decide +kernel) (by decide)
  · exact not_local _ pairNode c!"x" c!"a b" [] [] rfl rfl hs (by decide +kernel) (by decide +kernel)
      (by decide +kernel) (by decide +kernel) (by decide)

/-- **C100** And tables must not be put in or taken out: fences become those of a matrix. -/
theorem C100_tables_matter : ∃ (n n' : Node) (s s' t t' : Str), latexIn false n = .ok s ∧ latexIn false n' = .ok s' ∧
    latexIn false (.elem c!"mfenced" [] [n]) = .ok t ∧ latexIn false (.elem c!"mfenced" [] [n']) = .ok t' ∧
    t.length + s'.length ≠ t'.length + s.length :=
  ⟨tokenOf c!"mi" c!"x", .elem c!"mtable" [] [.elem c!"mtr" [] [.elem c!"mtd" [] [tokenOf c!"mi" c!"x"]]], c!"x", c!"x",
    c!"\\left(x\\right)", c!"\\begin{bmatrix}\nx\n\\end{bmatrix}", by decide +kernel, by decide +kernel, by decide +kernel,
    by decide +kernel, by decide⟩

end Verif
