import Verif.Spec.Renaming
import Verif.Props.Tokens
import Verif.Props.Shown
import Verif.Props.Text
import Verif.Props.Doc

/-!
# C98: names do not matter
-/

namespace Verif
open Spec

/-! ## Strings with marks -/

/-- No mark. -/
def plain (s : Str) : Marked := s.map (·, false)

/-- Without the marks. -/
def bare (u : Marked) : Str := u.map Prod.fst

@[simp] theorem fill_plain (π : Char → Char) (s : Str) : fill π (plain s) = s := by
  simp [fill, plain, Function.comp_def]

@[simp] theorem bare_plain (s : Str) : bare (plain s) = s := by simp [bare, plain, Function.comp_def]

@[simp] theorem fill_append (π : Char → Char) (u v : Marked) : fill π (u ++ v) = fill π u ++ fill π v := List.map_append

@[simp] theorem bare_append (u v : Marked) : bare (u ++ v) = bare u ++ bare v := List.map_append

@[simp] theorem fill_nil (π : Char → Char) : fill π [] = [] := rfl

@[simp] theorem bare_nil : bare [] = [] := rfl

theorem fine_plain (s : Str) : Fine (plain s) := by
  intro p hp h
  obtain ⟨c, _, rfl⟩ := List.mem_map.1 hp
  cases h

theorem fine_append {u v : Marked} (hu : Fine u) (hv : Fine v) : Fine (u ++ v) := by
  intro p hp
  rcases List.mem_append.1 hp with h | h
  · exact hu p h
  · exact hv p h

theorem alnum_space {c : Char} (h : isAsciiAlnum c = true) : isSpace c = false := by
  cases hs : isSpace c with
  | false => rfl
  | true =>
    exfalso
    simp only [isAsciiAlnum, Bool.or_eq_true, Bool.and_eq_true, decide_eq_true_eq] at h
    have := (isSpace_iff c).1 hs
    unfold White whiteCodes at this
    simp only [List.mem_cons, List.not_mem_nil, or_false] at this
    omega

/-- `split` for strings with marks. -/
def splitAuxM : Marked → Marked × List Marked
  | [] => ([], [])
  | p :: u =>
    let r := splitAuxM u
    if isSpace p.1 then ([], if r.1 = [] then r.2 else r.1 :: r.2) else (p :: r.1, r.2)

def splitM (u : Marked) : List Marked :=
  let r := splitAuxM u
  if r.1 = [] then r.2 else r.1 :: r.2

/-- A function of the characters that keeps white space where it is. -/
def KeepsNames (f : Char × Bool → Char) (u : Marked) : Prop := ∀ p ∈ u, isSpace (f p) = isSpace p.1

theorem splitAux_map (f : Char × Bool → Char) : ∀ u : Marked, KeepsNames f u →
    splitAux (u.map f) = ((splitAuxM u).1.map f, (splitAuxM u).2.map (·.map f))
  | [], _ => rfl
  | p :: u, h => by
    rw [List.map_cons, splitAux, splitAuxM, splitAux_map f u fun q hq => h q (.tail _ hq)]
    simp only [h p (.head _), List.map_eq_nil_iff]
    split
    · split <;> rfl
    · rfl

theorem split_map (f : Char × Bool → Char) (u : Marked) (h : KeepsNames f u) : split (u.map f) = (splitM u).map (·.map f) := by
  rw [split, splitM, splitAux_map f u h]
  simp only [List.map_eq_nil_iff]
  split <;> rfl

/-- `join` for strings with marks. -/
def joinM (sep : Str) : List Marked → Marked
  | [] => []
  | [u] => u
  | u :: v :: us => u ++ plain sep ++ joinM sep (v :: us)

theorem fill_join (π : Char → Char) (sep : Str) : ∀ us : List Marked, fill π (joinM sep us) = join sep (us.map (fill π))
  | [] => rfl
  | [_] => rfl
  | u :: v :: us => by
    rw [joinM, fill_append, fill_append, fill_plain, fill_join π sep (v :: us)]; rfl

theorem bare_join (sep : Str) : ∀ us : List Marked, bare (joinM sep us) = join sep (us.map bare)
  | [] => rfl
  | [_] => rfl
  | u :: v :: us => by
    rw [joinM, bare_append, bare_append, bare_plain, bare_join sep (v :: us)]; rfl

theorem fine_join {sep : Str} : ∀ {us : List Marked}, (∀ u ∈ us, Fine u) → Fine (joinM sep us)
  | [], _ => fun _ h => nomatch h
  | [u], h => h u (.head _)
  | u :: v :: us, h => fine_append (fine_append (h u (.head _)) (fine_plain _)) (fine_join fun w hw => h w (.tail _ hw))

/-- `normalize` for strings with marks. -/
def normalizeM (u : Marked) : Marked := joinM c!" " (splitM u)

theorem keeps_fill {π : Char → Char} (hπ : Names π) {u : Marked} (hu : Fine u) :
    KeepsNames (fun p => if p.2 then π p.1 else p.1) u := by
  intro p hp
  dsimp only
  split
  · rename_i h
    rw [alnum_space (hu p hp h), alnum_space (hπ _ (hu p hp h))]
  · rfl

theorem fill_normalize {π : Char → Char} (hπ : Names π) {u : Marked} (hu : Fine u) :
    fill π (normalizeM u) = normalize (fill π u) := by
  rw [normalizeM, fill_join, normalize, fill, split_map _ _ (keeps_fill hπ hu)]
  rfl

theorem bare_normalize (u : Marked) : bare (normalizeM u) = normalize (bare u) := by
  rw [normalizeM, bare_join, normalize, bare, split_map _ _ fun _ _ => rfl]
  rfl

theorem mem_splitAuxM : ∀ u : Marked, (∀ p ∈ (splitAuxM u).1, p ∈ u) ∧ ∀ w ∈ (splitAuxM u).2, ∀ p ∈ w, p ∈ u
  | [] => ⟨fun _ h => (nomatch h), fun _ h => (nomatch h)⟩
  | p :: u => by
    obtain ⟨h1, h2⟩ := mem_splitAuxM u
    rw [splitAuxM]
    split
    · refine ⟨fun _ h => (nomatch h), ?_⟩
      dsimp only
      split
      · exact fun w hw q hq => .tail _ (h2 w hw q hq)
      · intro w hw q hq
        rcases List.mem_cons.1 hw with rfl | hw
        · exact .tail _ (h1 q hq)
        · exact .tail _ (h2 w hw q hq)
    · refine ⟨fun q hq => ?_, fun w hw q hq => .tail _ (h2 w hw q hq)⟩
      rcases List.mem_cons.1 hq with rfl | hq
      · exact .head _
      · exact .tail _ (h1 q hq)

theorem fine_normalize {u : Marked} (hu : Fine u) : Fine (normalizeM u) := by
  refine fine_join fun w hw p hp => hu p ?_
  obtain ⟨h1, h2⟩ := mem_splitAuxM u
  rw [splitM] at hw
  split at hw
  · exact h2 w hw p hp
  · rcases List.mem_cons.1 hw with rfl | hw
    · exact h1 p hp
    · exact h2 w hw p hp

/-! ## Accents -/

theorem accent_ink {a : Str} (h : a ∈ accentCommands) : ink a = a ∧ split a = [a] ∧ a.count '\\' = 1 ∧
    (∀ c ∈ a, c ∉ c!"{}/&Lf|(") ∧ ∃ w, a = '\\' :: w := by
  simp only [accentCommands, List.mem_cons, List.not_mem_nil, or_false] at h
  rcases h with rfl | rfl | rfl | rfl <;> exact ⟨by decide, by decide, by decide, by decide, _, rfl⟩

/-- A string that is an accent after normalisation has no mark in it, whatever the names. -/
def Plainly (u : Marked) : Prop := ∀ π, Names π → normalize (fill π u) ∈ accentCommands → ∀ p ∈ u, p.2 = false

theorem plainly_plain (s : Str) : Plainly (plain s) := by
  intro π _ _ p hp
  obtain ⟨c, _, rfl⟩ := List.mem_map.1 hp
  rfl

/-- A character that is in no accent. -/
theorem plainly_odd {u : Marked} (h : ∃ c ∈ c!"{}/&Lf|(", (c, false) ∈ u) : Plainly u := by
  intro π _ ha
  exfalso
  obtain ⟨c, hc, hu⟩ := h
  obtain ⟨h1, -, -, h4, -⟩ := accent_ink ha
  rw [ink_normalize] at h1
  refine h4 c ?_ hc
  rw [← h1]
  refine List.mem_filter.2 ⟨List.mem_map.2 ⟨_, hu, rfl⟩, ?_⟩
  exact (by decide : ∀ c ∈ c!"{}/&Lf|(", (!isSpace c) = true) c hc

theorem plainly_two (u v : Marked) : Plainly (u ++ plain c!" \\\\\n" ++ v) := by
  intro π _ ha
  exfalso
  obtain ⟨h1, -, h3, -⟩ := accent_ink ha
  rw [ink_normalize] at h1
  rw [← h1, fill_append, fill_append, fill_plain, ink_append, ink_append, List.count_append, List.count_append] at h3
  have : (ink c!" \\\\\n").count '\\' = 2 := by decide
  omega

theorem plainly_one {sep : Str} (h : ∀ u v : Marked, Plainly (u ++ plain sep ++ v)) :
    ∀ {us : List Marked}, (∀ u ∈ us, Plainly u) → Plainly (joinM sep us)
  | [], _ => fun _ _ _ _ hp => nomatch hp
  | [u], hu => hu u (.head _)
  | _ :: _ :: _, _ => h _ _

theorem split_nil_space {s : Str} (h : split s = []) : ∀ c ∈ s, isSpace c = true := by
  intro c hc
  have : ink s = [] := by rw [← ink_normalize, normalize, h]; rfl
  cases hs : isSpace c with
  | true => rfl
  | false =>
    have : c ∈ ink s := List.mem_filter.2 ⟨hc, by rw [hs]; rfl⟩
    simp_all

theorem plainly_blank {π : Char → Char} (hπ : Names π) {u : Marked} (hu : Fine u) (h : split (fill π u) = []) :
    ∀ p ∈ u, p.2 = false := by
  intro p hp
  cases h2 : p.2 with
  | false => rfl
  | true =>
    have h1 := split_nil_space h (π p.1) (List.mem_map.2 ⟨p, hp, by rw [h2]; rfl⟩)
    rw [alnum_space (hπ _ (hu p hp h2))] at h1
    cases h1

theorem mem_join {sep : Str} {p : Char × Bool} : ∀ {us : List Marked}, p ∈ joinM sep us → (∃ u ∈ us, p ∈ u) ∨ p ∈ plain sep
  | [], h => nomatch h
  | [u], h => .inl ⟨u, .head _, h⟩
  | u :: v :: us, h => by
    rw [joinM] at h
    rcases List.mem_append.1 h with h | h
    · rcases List.mem_append.1 h with h | h
      · exact .inl ⟨u, .head _, h⟩
      · exact .inr h
    · rcases mem_join h with ⟨w, hw, h⟩ | h
      · exact .inl ⟨w, .tail _ hw, h⟩
      · exact .inr h

theorem sublist_one {α : Type} {l : List α} {a : α} (h : l.Sublist [a]) : l = [] ∨ l = [a] := by
  cases h with
  | cons _ h => exact .inl (List.sublist_nil.1 h)
  | cons_cons _ h => exact .inr (by rw [List.sublist_nil.1 h])

theorem plainly_row {us : List Marked} (hf : ∀ u ∈ us, Fine u) (hu : ∀ u ∈ us, Plainly u) : Plainly (joinM c!" " us) := by
  intro π hπ ha p hp
  obtain ⟨-, h2, -⟩ := accent_ink ha
  rw [split_normalize, fill_join, split_join_flatten] at h2
  rcases mem_join hp with ⟨u, hm, h⟩ | h
  · have hs : (split (fill π u)).Sublist [normalize (join c!" " (us.map (fill π)))] := by
      rw [← h2]
      exact List.sublist_flatten_of_mem (List.mem_map.2 ⟨_, List.mem_map.2 ⟨u, hm, rfl⟩, rfl⟩)
    rcases sublist_one hs with h3 | h3
    · exact plainly_blank hπ (hf u hm) h3 p h
    · refine hu u hm π hπ ?_ p h
      rw [fill_join] at ha
      rw [normalize, h3]
      exact ha
  · obtain ⟨c, _, rfl⟩ := List.mem_map.1 h
    rfl

theorem plainly_normalize {u : Marked} (hf : Fine u) (hu : Plainly u) : Plainly (normalizeM u) := by
  intro π hπ ha p hp
  rw [fill_normalize hπ hf, normalize_idem] at ha
  have h0 := hu π hπ ha
  rcases mem_join hp with ⟨w, hw, h⟩ | h
  · obtain ⟨h1, h2⟩ := mem_splitAuxM u
    rw [splitM] at hw
    split at hw
    · exact h0 p (h2 w hw p h)
    · rcases List.mem_cons.1 hw with rfl | hw
      · exact h0 p (h1 p h)
      · exact h0 p (h2 w hw p h)
  · obtain ⟨c, _, rfl⟩ := List.mem_map.1 h
    rfl

/-! ## Renaming -/

theorem renames_eq (π : Char → Char) : ∀ cs : List Node, renames π cs = cs.map (rename π)
  | [] => rfl
  | n :: ns => by rw [renames, renames_eq π ns]; rfl

theorem rename_isElem (π : Char → Char) (n : Node) : (rename π n).isElem = n.isElem := by
  cases n <;> simp [rename, Node.isElem]

theorem rename_tag (π : Char → Char) (t : Str) (n : Node) : tagIs t (rename π n) = tagIs t n := by
  cases n <;> simp [rename, tagIs]

theorem kids_renames (π : Char → Char) (cs : List Node) : kids (renames π cs) = (kids cs).map (rename π) := by
  rw [renames_eq, kids, kids, List.filter_map]
  congr 1
  exact List.filter_congr fun n _ => rename_isElem π n

theorem kids_renameToken (π : Char → Char) (cs : List Node) : kids (renameToken π cs) = kids cs := by
  unfold renameToken
  split <;> rfl

theorem childElems_rename (π : Char → Char) (n : Node) : (childElems (rename π n)).length = (childElems n).length := by
  cases n with
  | elem tag A cs =>
    simp only [rename, childElems]
    split
    · rw [kids_renameToken, kids_renames, List.length_map]
    · rw [kids_renames, List.length_map]
  | _ => rfl

theorem scriptBase_rename (π : Char → Char) (n : Node) (s : Str) : scriptBase (rename π n) s = scriptBase n s := by
  rw [scriptBase, childElems_rename, scriptBase]

theorem elements_renameToken (π : Char → Char) (cs : List Node) : elements (renameToken π cs) = elements cs := by
  unfold renameToken
  split <;> rfl

mutual
theorem elementsOf_rename (π : Char → Char) (n : Node) : elementsOf (rename π n) = (elementsOf n).map (rename π) := by
  match n with
  | .elem tag A cs =>
    have h : elements (if tag ∈ nameTags then renameToken π (renames π cs) else renames π cs) = (elements cs).map (rename π) := by
      split
      · rw [elements_renameToken, elements_renames π cs]
      · exact elements_renames π cs
    rw [rename, elementsOf, elementsOf, h, List.map_cons, rename]
  | .text _ => rfl
  | .cdata _ => rfl
  | .comment _ => rfl
  | .pi _ _ => rfl
theorem elements_renames (π : Char → Char) (ns : List Node) : elements (renames π ns) = (elements ns).map (rename π) := by
  match ns with
  | [] => rfl
  | n :: ns => rw [renames, elements, elements, elementsOf_rename π n, elements_renames π ns, List.map_append]
end

theorem hasTable_renames (π : Char → Char) (cs : List Node) : HasTable (renames π cs) ↔ HasTable cs := by
  unfold HasTable
  rw [elements_renames]
  constructor
  · rintro ⟨n, hn, h⟩
    obtain ⟨m, hm, rfl⟩ := List.mem_map.1 hn
    exact ⟨m, hm, by rw [← rename_tag π]; exact h⟩
  · rintro ⟨n, hn, h⟩
    exact ⟨_, List.mem_map.2 ⟨n, hn, rfl⟩, by rw [rename_tag]; exact h⟩

theorem prePair_renames (π : Char → Char) (ns : List Node) :
    prePair (ns.map (rename π)) = (prePair ns).map fun p => (rename π p.1, rename π p.2) := by
  match ns with
  | [] => rfl
  | [_] => rfl
  | [_, _] => rfl
  | [_, _, _] => rfl
  | [_, m, x, y] =>
    simp only [List.map_cons, List.map_nil, prePair, isPre, rename_tag]
    split <;> simp [*]
  | [_, m, x, y, _] =>
    simp only [List.map_cons, List.map_nil, prePair, isPre, rename_tag]
    split <;> simp [*]
  | _ :: m :: x :: y :: p :: q :: _ =>
    simp only [List.map_cons, prePair, isPre, rename_tag]
    split
    · simp [*]
    · split <;> simp [*]

theorem postPair_renames (π : Char → Char) (ns : List Node) :
    postPair (ns.map (rename π)) = (postPair ns).map fun p => (rename π p.1, rename π p.2) := by
  match ns with
  | [] => rfl
  | [_] => rfl
  | [_, _] => rfl
  | _ :: p :: q :: _ =>
    simp only [List.map_cons, postPair, isPre, rename_tag]
    split <;> simp [*]

/-! ## Templates -/

/-- `u` is the LaTeX of the element, with marks on the letters and digits that come from names. -/
structure Template (b : Bool) (n : Node) (s : Str) (u : Marked) : Prop where
  fine : Fine u
  here : bare u = s
  there : ∀ π, Names π → Renders b (rename π n) (fill π u)
  plainly : Plainly u

theorem rename_elem (π : Char → Char) {tag : Str} (h : tag ∉ nameTags) (A : List (Str × Str)) (cs : List Node) :
    rename π (.elem tag A cs) = .elem tag A (renames π cs) := by rw [rename, if_neg h]

theorem collect {b : Bool} : ∀ {ns : List Node} {ss : List Str}, ns.length = ss.length →
    (∀ p ∈ ns.zip ss, ∃ u, Template b p.1 p.2 u) →
    ∃ us : List Marked, us.map bare = ss ∧ (∀ u ∈ us, Fine u) ∧ (∀ u ∈ us, Plainly u) ∧ ns.length = us.length ∧
      ∀ π, Names π → ∀ p ∈ (ns.map (rename π)).zip (us.map (fill π)), Renders b p.1 p.2
  | [], [], _, _ => ⟨[], rfl, fun _ h => (nomatch h), fun _ h => (nomatch h), rfl, fun _ _ _ h => (nomatch h)⟩
  | n :: ns, s :: ss, hl, h => by
    obtain ⟨u, hu⟩ := h (n, s) (.head _)
    obtain ⟨us, h1, h2, h3, h4, h5⟩ := collect (ns := ns) (ss := ss) (by simpa using hl) fun p hp => h p (.tail _ hp)
    refine ⟨u :: us, by rw [List.map_cons, hu.here, h1], ?_, ?_, by simp [h4], ?_⟩
    · rintro v (_ | ⟨_, hv⟩)
      · exact hu.fine
      · exact h2 v hv
    · rintro v (_ | ⟨_, hv⟩)
      · exact hu.plainly
      · exact h3 v hv
    · rintro π hπ p (_ | ⟨_, hp⟩)
      · exact hu.there π hπ
      · exact h5 π hπ p hp

/-- The children of an element that is no token. -/
theorem among {b : Bool} {cs : List Node} {ss : List Str} (hl : (kids cs).length = ss.length)
    (h : ∀ p ∈ (kids cs).zip ss, ∃ u, Template b p.1 p.2 u) :
    ∃ us : List Marked, us.map bare = ss ∧ (∀ u ∈ us, Fine u) ∧ (∀ u ∈ us, Plainly u) ∧
      ∀ π, Names π → (kids (renames π cs)).length = (us.map (fill π)).length ∧
        ∀ p ∈ (kids (renames π cs)).zip (us.map (fill π)), Renders b p.1 p.2 := by
  obtain ⟨us, h1, h2, h3, h4, h5⟩ := collect hl h
  refine ⟨us, h1, h2, h3, fun π hπ => ?_⟩
  rw [kids_renames]
  exact ⟨by simp [h4], h5 π hπ⟩

/-! ## Tokens -/

theorem tokenData_rest {t t' : Str} {cs : List Node} :
    tokenData (.text t :: cs) = t ∧ tokenData (.text t' :: cs) = t' ∨
      tokenData (.text t :: cs) = [] ∧ tokenData (.text t' :: cs) = [] := by
  by_cases h : ∃ n ∈ cs, n.isElem = true
  · right
    obtain ⟨n, hn, he⟩ := h
    exact ⟨if_pos ⟨n, .tail _ hn, he⟩, if_pos ⟨n, .tail _ hn, he⟩⟩
  · left
    have h' : ∀ t : Str, ¬ ∃ n ∈ (Node.text t :: cs), n.isElem = true := by
      rintro t ⟨n, hn, he⟩
      rcases List.mem_cons.1 hn with rfl | hn
      · cases he
      · exact h ⟨n, hn, he⟩
    exact ⟨if_neg (h' t), if_neg (h' t')⟩

/-- The string begins with a letter or a digit. -/
def Begins (s : Str) : Prop := ∃ c w, s = c :: w ∧ isAsciiAlnum c = true

theorem token_cases (cs : List Node) : (∀ π, tokenData (renameToken π cs) = tokenData cs) ∨
    ∃ u, Fine u ∧ bare u = normalize (tokenData cs) ∧ Begins (normalize (tokenData cs)) ∧
      ∀ π, Names π → fill π u = normalize (tokenData (renameToken π cs)) ∧ Begins (fill π u) := by
  unfold renameToken
  split
  · rename_i t cs
    by_cases ht : IsName t
    · simp only [if_pos ht]
      rcases tokenData_rest (t := t) (t' := t) (cs := cs) with ⟨h1, -⟩ | ⟨h1, -⟩
      · right
        have hf : Fine (t.map fun c => (c, isAsciiAlnum c)) := by
          intro p hp h
          obtain ⟨c, _, rfl⟩ := List.mem_map.1 hp
          exact h
        have hb : bare (t.map fun c => (c, isAsciiAlnum c)) = t := by simp [bare, Function.comp_def]
        rw [h1]
        refine ⟨normalizeM (t.map fun c => (c, isAsciiAlnum c)), fine_normalize hf, ?_, ht, fun π hπ => ⟨?_, ?_⟩⟩
        · rw [bare_normalize, hb]
        · rw [fill_normalize hπ hf]
          rcases tokenData_rest (t := t) (t' := t.map (renameChar π)) (cs := cs) with ⟨-, h2⟩ | ⟨h2, -⟩
          · rw [h2]
            congr 1
            simp [fill, renameChar, Function.comp_def]
          · obtain ⟨c, w, h3, _⟩ := ht
            rw [h1] at h2
            rw [h2] at h3
            cases h3
        · obtain ⟨c, w, h3, h4⟩ := ht
          have h5 := bare_normalize (t.map fun c => (c, isAsciiAlnum c))
          rw [hb, h3] at h5
          cases hu : normalizeM (t.map fun c => (c, isAsciiAlnum c)) with
          | nil => rw [hu] at h5; cases h5
          | cons p u =>
            rw [hu] at h5
            injection h5 with h5 _
            refine ⟨_, _, rfl, ?_⟩
            dsimp only
            split
            · exact hπ _ (by rw [h5]; exact h4)
            · rw [h5]; exact h4
      · left
        intro π
        rcases tokenData_rest (t := t) (t' := t.map (renameChar π)) (cs := cs) with ⟨h2, h3⟩ | ⟨h2, h3⟩
        · obtain ⟨c, w, h4, _⟩ := ht
          rw [h1] at h2
          rw [← h2] at h4
          cases h4
        · rw [h1, h3]
    · left
      intro π
      rw [if_neg ht]
  · exact .inl fun _ => rfl

theorem begins_plainly {u : Marked} (h : ∀ π, Names π → Begins (fill π u) ∧ normalize (fill π u) = fill π u) : Plainly u := by
  intro π hπ ha
  exfalso
  obtain ⟨⟨c, w, h1, h2⟩, h3⟩ := h π hπ
  obtain ⟨-, -, -, -, v, h4⟩ := accent_ink ha
  rw [h3, h1] at h4
  cases h4
  cases h2

theorem mi_alnum {k : Str} (h : Begins k) : MiSymbol k k := by
  obtain ⟨c, w, rfl, hc⟩ := h
  refine symbol_alnum goodTables_mi ?_ hc
  intro t ht
  simp only [List.mem_cons, List.not_mem_nil, or_false] at ht
  rcases ht with rfl | rfl | rfl
  · exact trivial_symChar
  · exact trivial_symGlyph
  · exact trivial_number

theorem mo_alnum {k : Str} (h : Begins k) : MoSymbol k k := by
  obtain ⟨c, w, rfl, hc⟩ := h
  refine symbol_alnum goodTables_mo ?_ hc
  intro t ht
  simp only [List.mem_cons, List.not_mem_nil, or_false] at ht
  rcases ht with rfl | rfl | rfl
  · exact trivial_opChar
  · exact trivial_opGlyph
  · exact trivial_number

theorem mn_alnum {k : Str} (h : Begins k) : MnSymbol k k := by
  obtain ⟨c, w, rfl, hc⟩ := h
  rw [MnSymbol, tabulated_iff goodTables_mn, untabulated_iff goodTables_mn]
  cases hl : lookupAll [mathNumberByGlyph] (c :: w) with
  | none => exact .inr ⟨rfl, rfl⟩
  | some v =>
    refine .inl ?_
    rw [lookupAll_trivial (by simpa using trivial_number) hc hl]

/-- Commands around a string with marks. -/
def applyAllM : List Str → Marked → Marked
  | [], u => u
  | c :: cs, u => plain (c ++ c!"{") ++ applyAllM cs u ++ plain c!"}"

theorem fill_applyAll (π : Char → Char) (u : Marked) : ∀ cs : List Str, fill π (applyAllM cs u) = applyAll cs (fill π u)
  | [] => rfl
  | c :: cs => by rw [applyAllM, fill_append, fill_append, fill_plain, fill_plain, fill_applyAll π u cs, applyAll]

theorem bare_applyAll (u : Marked) : ∀ cs : List Str, bare (applyAllM cs u) = applyAll cs (bare u)
  | [] => rfl
  | c :: cs => by rw [applyAllM, bare_append, bare_append, bare_plain, bare_plain, bare_applyAll u cs, applyAll]

theorem fine_applyAll {u : Marked} (hu : Fine u) : ∀ cs : List Str, Fine (applyAllM cs u)
  | [] => hu
  | _ :: cs => fine_append (fine_append (fine_plain _) (fine_applyAll hu cs)) (fine_plain _)

theorem plainly_applyAll {u : Marked} (hu : Plainly u) : ∀ cs : List Str, Plainly (applyAllM cs u)
  | [] => hu
  | _ :: cs => plainly_odd ⟨'{', by decide, by simp [applyAllM, plain]⟩

theorem isElem_renames (π : Char → Char) (cs : List Node) : (∃ n ∈ renames π cs, n.isElem = true) ↔ ∃ n ∈ cs, n.isElem = true := by
  rw [renames_eq]
  constructor
  · rintro ⟨n, hn, he⟩
    obtain ⟨m, hm, rfl⟩ := List.mem_map.1 hn
    exact ⟨m, hm, by rw [← rename_isElem π]; exact he⟩
  · rintro ⟨n, hn, he⟩
    exact ⟨_, List.mem_map.2 ⟨n, hn, rfl⟩, by rw [rename_isElem]; exact he⟩

theorem isElem_renameToken (π : Char → Char) (cs : List Node) : (∃ n ∈ renameToken π cs, n.isElem = true) ↔ ∃ n ∈ cs, n.isElem = true := by
  unfold renameToken
  split
  · simp [Node.isElem]
  · rfl

theorem tokenData_renames (π : Char → Char) (cs : List Node) : tokenData (renameToken π (renames π cs)) = tokenData (renameToken π cs) := by
  by_cases hc : ∃ n ∈ cs, n.isElem = true
  · unfold tokenData
    rw [if_pos ((isElem_renameToken π _).2 ((isElem_renames π _).2 hc)), if_pos ((isElem_renameToken π _).2 hc)]
  · have : renames π cs = cs := by
      rw [renames_eq]
      conv => rhs; rw [← List.map_id cs]
      refine List.map_congr_left fun n hn => ?_
      cases n with
      | elem => exact absurd ⟨_, hn, rfl⟩ hc
      | _ => rfl
    rw [this]

theorem token {b : Bool} {tag : Str} (ht : tag ∈ nameTags) {A : List (Str × Str)} {cs : List Node} {P : Str → Str → Prop}
    {cmds : List Str} (hr : ∀ {cs s}, P (normalize (tokenData cs)) s → Renders b (.elem tag A cs) (applyAll cmds s))
    (ha : ∀ {k}, Begins k → P k k) {s : Str} (h : P (normalize (tokenData cs)) s) :
    ∃ u, Template b (.elem tag A cs) (applyAll cmds s) u := by
  have hd : ∀ {x y}, P (normalize (tokenData cs)) x → P (normalize (tokenData cs)) y → applyAll cmds x = applyAll cmds y := by
    intro x y hx hy
    have h1 := (hr hx).sound
    have h2 := (hr hy).sound
    rw [h1] at h2
    exact Except.ok.inj h2
  rcases token_cases cs with h1 | ⟨u, h1, h2, h3, h4⟩
  · refine ⟨plain (applyAll cmds s), fine_plain _, bare_plain _, fun π _ => ?_, plainly_plain _⟩
    rw [rename, if_pos ht, fill_plain]
    exact hr (by rw [tokenData_renames, h1]; exact h)
  · refine ⟨applyAllM cmds u, fine_applyAll h1 _, ?_, fun π hπ => ?_, plainly_applyAll (begins_plainly fun π hπ => ?_) _⟩
    · rw [bare_applyAll, h2]
      exact hd (ha h3) h
    · rw [rename, if_pos ht, fill_applyAll]
      refine hr ?_
      rw [tokenData_renames, ← (h4 π hπ).1]
      exact ha (h4 π hπ).2
    · exact ⟨(h4 π hπ).2, by rw [(h4 π hπ).1, normalize_idem]⟩

/-! ## Constructs -/

theorem names_id : Names id := fun _ h => h

theorem fill_id (u : Marked) : fill id u = bare u := by
  unfold fill bare
  refine List.map_congr_left fun p _ => ?_
  split <;> rfl

theorem fill_unmarked {u : Marked} (h : ∀ p ∈ u, p.2 = false) (π : Char → Char) : fill π u = bare u := by
  unfold fill bare
  refine List.map_congr_left fun p hp => ?_
  rw [h p hp]; rfl

theorem length_fill (π : Char → Char) (u : Marked) : (fill π u).length = u.length := List.length_map ..

theorem length_bare (u : Marked) : (bare u).length = u.length := List.length_map ..

theorem accent_normal {a : Str} (h : a ∈ accentCommands) : normalize a = a := by
  rw [normalize, (accent_ink h).2.1]; rfl

theorem accent_iff {u : Marked} (hu : Plainly u) {π : Char → Char} (hπ : Names π) :
    fill π u ∈ accentCommands ↔ bare u ∈ accentCommands := by
  constructor
  · intro h
    rw [← fill_unmarked (hu π hπ (by rw [accent_normal h]; exact h)) π]
    exact h
  · intro h
    rw [← fill_id] at h
    rw [fill_unmarked (hu id names_id (by rw [accent_normal h]; exact h)) π, ← fill_id]
    exact h

def parensM (u : Marked) : Marked := plain c!"\\left(" ++ u ++ plain c!"\\right)"

def parensIfLongM (u : Marked) : Marked := if 2 ≤ u.length then parensM u else u

theorem fill_parens (π : Char → Char) (u : Marked) : fill π (parensM u) = parens (fill π u) := by simp [parensM, parens]

theorem bare_parens (u : Marked) : bare (parensM u) = parens (bare u) := by simp [parensM, parens]

theorem fine_parens {u : Marked} (h : Fine u) : Fine (parensM u) := fine_append (fine_append (fine_plain _) h) (fine_plain _)

theorem fill_parensIfLong (π : Char → Char) (u : Marked) : fill π (parensIfLongM u) = parensIfLong (fill π u) := by
  rw [parensIfLongM, parensIfLong, length_fill]
  split
  · exact fill_parens π u
  · rfl

theorem bare_parensIfLong (u : Marked) : bare (parensIfLongM u) = parensIfLong (bare u) := by
  rw [parensIfLongM, parensIfLong, length_bare]
  split
  · exact bare_parens u
  · rfl

theorem fine_parensIfLong {u : Marked} (h : Fine u) : Fine (parensIfLongM u) := by
  rw [parensIfLongM]
  split
  · exact fine_parens h
  · exact h

def scriptBaseM (n : Node) (u : Marked) : Marked := if 2 ≤ (childElems n).length then parensIfLongM u else u

theorem fill_scriptBase (π : Char → Char) (n : Node) (u : Marked) : fill π (scriptBaseM n u) = scriptBase (rename π n) (fill π u) := by
  rw [scriptBase_rename, scriptBaseM, scriptBase]
  split
  · exact fill_parensIfLong π u
  · rfl

theorem bare_scriptBase (n : Node) (u : Marked) : bare (scriptBaseM n u) = scriptBase n (bare u) := by
  rw [scriptBaseM, scriptBase]
  split
  · exact bare_parensIfLong u
  · rfl

theorem fine_scriptBase {n : Node} {u : Marked} (h : Fine u) : Fine (scriptBaseM n u) := by
  rw [scriptBaseM]
  split
  · exact fine_parensIfLong h
  · exact h

def stackedM (cmd : Str) (u a : Marked) : Marked :=
  if bare a ∈ accentCommands then a ++ plain c!"{" ++ u ++ plain c!"}"
  else plain (cmd ++ c!"{") ++ a ++ plain c!"}{" ++ u ++ plain c!"}"

theorem fill_stacked {π : Char → Char} (hπ : Names π) (cmd : Str) (u : Marked) {a : Marked} (ha : Plainly a) :
    fill π (stackedM cmd u a) = stacked cmd (fill π u) (fill π a) := by
  unfold stackedM stacked
  by_cases h : bare a ∈ accentCommands
  · rw [if_pos h, if_pos ((accent_iff ha hπ).2 h)]; simp [braces]
  · rw [if_neg h, if_neg fun h' => h ((accent_iff ha hπ).1 h')]; simp [braces]

theorem bare_stacked (cmd : Str) (u a : Marked) : bare (stackedM cmd u a) = stacked cmd (bare u) (bare a) := by
  unfold stackedM stacked
  split <;> simp [braces]

theorem fine_stacked {cmd : Str} {u a : Marked} (hu : Fine u) (ha : Fine a) : Fine (stackedM cmd u a) := by
  unfold stackedM
  split
  · exact fine_append (fine_append (fine_append ha (fine_plain _)) hu) (fine_plain _)
  · exact fine_append (fine_append (fine_append (fine_append (fine_plain _) ha) (fine_plain _)) hu) (fine_plain _)

theorem mem_plain {c : Char} {s : Str} : (c, false) ∈ plain s ↔ c ∈ s := by simp [plain]

theorem plainly_stacked (cmd : Str) (u a : Marked) : Plainly (stackedM cmd u a) := by
  refine plainly_odd ⟨'{', by decide, ?_⟩
  unfold stackedM
  split <;> simp [mem_plain]

def interleaveM (sep : Nat → Str) : List Marked → Marked
  | [] => []
  | [u] => u
  | u :: v :: us => u ++ plain (sep 0) ++ interleaveM (fun i => sep (i + 1)) (v :: us)

theorem fill_interleave (π : Char → Char) : ∀ (sep : Nat → Str) (us : List Marked),
    fill π (interleaveM sep us) = interleave sep (us.map (fill π))
  | _, [] => rfl
  | _, [_] => rfl
  | sep, u :: v :: us => by
    rw [interleaveM, fill_append, fill_append, fill_plain, fill_interleave π _ (v :: us)]; rfl

theorem bare_interleave : ∀ (sep : Nat → Str) (us : List Marked),
    bare (interleaveM sep us) = interleave sep (us.map bare)
  | _, [] => rfl
  | _, [_] => rfl
  | sep, u :: v :: us => by
    rw [interleaveM, bare_append, bare_append, bare_plain, bare_interleave _ (v :: us)]; rfl

theorem fine_interleave : ∀ {sep : Nat → Str} {us : List Marked}, (∀ u ∈ us, Fine u) → Fine (interleaveM sep us)
  | _, [], _ => fun _ h => nomatch h
  | _, [u], h => h u (.head _)
  | _, u :: v :: us, h => fine_append (fine_append (h u (.head _)) (fine_plain _)) (fine_interleave fun w hw => h w (.tail _ hw))

theorem fill_flatten (π : Char → Char) (us : List Marked) : fill π us.flatten = (us.map (fill π)).flatten := List.map_flatten ..

theorem bare_flatten (us : List Marked) : bare us.flatten = (us.map bare).flatten := List.map_flatten ..

theorem fine_flatten {us : List Marked} (h : ∀ u ∈ us, Fine u) : Fine us.flatten := by
  intro p hp
  obtain ⟨u, hu, hp⟩ := List.mem_flatten.1 hp
  exact h u hu p hp

/-- What stands around the rows of a matrix. -/
theorem matrix_around (op close : Str) : ∃ x y, (∃ w, x = w ++ c!"}\n") ∧
    ∀ ss, Spec.matrix op close ss = x ++ ss.flatten ++ y := by
  unfold Spec.matrix
  split
  · rename_i q _
    exact ⟨c!"\\begin{" ++ q.2 ++ c!"}\n", c!"\n\\end{" ++ q.2 ++ c!"}", ⟨_, rfl⟩, fun ss => by simp [environment]⟩
  · split
    · exact ⟨c!"\\begin{bmatrix}\n", c!"\n\\end{bmatrix}", ⟨c!"\\begin{bmatrix", rfl⟩, fun ss => by simp [environment]⟩
    · exact ⟨c!"\\left" ++ op ++ c!"\\begin{matrix}\n", c!"\n\\end{matrix}\\right" ++ close,
        ⟨c!"\\left" ++ op ++ c!"\\begin{matrix", by simp⟩, fun ss => by simp [environment]⟩

theorem enclosure_odd (k : Str) : ∃ c ∈ c!"{}/&Lf|(", c ∈ (enclosure k).1 ∨ c ∈ (enclosure k).2 := by
  unfold enclosure
  split
  · rename_i q hq
    have := List.mem_of_find?_eq_some hq
    revert this
    exact (by decide : ∀ q ∈ enclosures, ∃ c ∈ c!"{}/&Lf|(", c ∈ q.2.1 ∨ c ∈ q.2.2) q
  · exact ⟨'{', by decide, .inl (by decide)⟩

/-- A pair of scripts, with marks. -/
def scriptsM (prefix_ : Str) (pair : Option (Node × Node)) (sub sup : Marked) : Marked :=
  if pair.isSome then plain (prefix_ ++ c!"{") ++ sub ++ plain c!"}^{" ++ sup ++ plain c!"}" else []

theorem fill_scripts (π : Char → Char) (pre : Str) (pair : Option (Node × Node)) (f : Node × Node → Node × Node) (sub sup : Marked) :
    fill π (scriptsM pre pair sub sup) = scripts pre (pair.map f) (fill π sub) (fill π sup) := by
  unfold scriptsM scripts
  cases pair <;> simp [braces]

theorem bare_scripts (pre : Str) (pair : Option (Node × Node)) (sub sup : Marked) :
    bare (scriptsM pre pair sub sup) = scripts pre pair (bare sub) (bare sup) := by
  unfold scriptsM scripts
  cases pair <;> simp [braces]

theorem fine_scripts {pre : Str} {pair : Option (Node × Node)} {sub sup : Marked} (h1 : Fine sub) (h2 : Fine sup) :
    Fine (scriptsM pre pair sub sup) := by
  unfold scriptsM
  split
  · exact fine_append (fine_append (fine_append (fine_append (fine_plain _) h1) (fine_plain _)) h2) (fine_plain _)
  · exact fun _ h => nomatch h

/-- A script that is there only if the pair is. -/
theorem script_template {b : Bool} {pair : Option (Node × Node)} {f : Node × Node → Node} {s : Str}
    (h : ∀ p q, pair = some (p, q) → ∃ u, Template b (f (p, q)) s u) :
    ∃ u, Fine u ∧ bare u = s ∧ ∀ π, Names π → ∀ p q, pair = some (p, q) → Renders b (rename π (f (p, q))) (fill π u) := by
  cases pair with
  | none => exact ⟨plain s, fine_plain _, bare_plain _, fun _ _ _ _ h => nomatch h⟩
  | some r =>
    obtain ⟨u, hu⟩ := h r.1 r.2 rfl
    refine ⟨u, hu.fine, hu.here, fun π hπ p q h => ?_⟩
    cases h
    exact hu.there π hπ

def parensIfSpaceM (u : Marked) : Marked := if (∃ c ∈ bare u, isSpace c = true) then parensM u else u

theorem space_iff {π : Char → Char} (hπ : Names π) {u : Marked} (hu : Fine u) :
    (∃ c ∈ fill π u, isSpace c = true) ↔ ∃ c ∈ bare u, isSpace c = true := by
  have hk := keeps_fill hπ hu
  constructor
  · rintro ⟨c, hc, hs⟩
    obtain ⟨p, hp, rfl⟩ := List.mem_map.1 hc
    rw [hk p hp] at hs
    exact ⟨p.1, List.mem_map.2 ⟨p, hp, rfl⟩, hs⟩
  · rintro ⟨c, hc, hs⟩
    obtain ⟨p, hp, rfl⟩ := List.mem_map.1 hc
    exact ⟨_, List.mem_map.2 ⟨p, hp, rfl⟩, by rw [hk p hp]; exact hs⟩

theorem fill_parensIfSpace {π : Char → Char} (hπ : Names π) {u : Marked} (hu : Fine u) :
    fill π (parensIfSpaceM u) = parensIfSpace (fill π u) := by
  unfold parensIfSpaceM parensIfSpace
  by_cases h : ∃ c ∈ bare u, isSpace c = true
  · rw [if_pos h, if_pos ((space_iff hπ hu).2 h), fill_parens]
  · rw [if_neg h, if_neg fun h' => h ((space_iff hπ hu).1 h')]

theorem bare_parensIfSpace (u : Marked) : bare (parensIfSpaceM u) = parensIfSpace (bare u) := by
  unfold parensIfSpaceM parensIfSpace
  split
  · exact bare_parens u
  · rfl

theorem fine_parensIfSpace {u : Marked} (h : Fine u) : Fine (parensIfSpaceM u) := by
  unfold parensIfSpaceM
  split
  · exact fine_parens h
  · exact h

theorem plainly_multi {x y : Str} {p q : Option (Node × Node)} {u u1 u2 u3 u4 : Marked} (hu : Plainly u) :
    Plainly (scriptsM x p u1 u2 ++ parensIfSpaceM u ++ scriptsM y q u3 u4) := by
  cases hp : p with
  | some _ => exact plainly_odd ⟨'{', by decide, by simp [scriptsM, mem_plain]⟩
  | none =>
    cases hq : q with
    | some _ => exact plainly_odd ⟨'{', by decide, by simp [scriptsM, mem_plain]⟩
    | none =>
      have : scriptsM x none u1 u2 ++ parensIfSpaceM u ++ scriptsM y none u3 u4 = parensIfSpaceM u := by simp [scriptsM]
      rw [this]
      unfold parensIfSpaceM
      split
      · exact plainly_odd ⟨'(', by decide, by simp [parensM, mem_plain]⟩
      · exact hu

/-- Every element that has LaTeX has a template. -/
theorem template {b : Bool} {n : Node} {s : Str} (h : Renders b n s) : ∃ u, Template b n s u := by
  induction h with
  | @row b tag A cs ss ht hl _ ih =>
    obtain ⟨us, rfl, h2, h3, h4⟩ := among hl ih
    refine ⟨joinM c!" " us, fine_join h2, bare_join _ _, fun π hπ => ?_, plainly_row h2 h3⟩
    have hn : tag ∉ nameTags := by
      intro h
      apply ht
      simp only [nameTags, List.mem_cons, List.not_mem_nil, or_false] at h
      rcases h with rfl | rfl | rfl <;> decide
    rw [rename_elem π hn, fill_join]
    exact .row ht (h4 π hπ).1 (h4 π hπ).2
  | math hl _ ih =>
    obtain ⟨us, rfl, h2, h3, h4⟩ := among hl ih
    refine ⟨normalizeM (joinM c!" " us), fine_normalize (fine_join h2), ?_, fun π hπ => ?_,
      plainly_normalize (fine_join h2) (plainly_row h2 h3)⟩
    · rw [bare_normalize, bare_join]
    · rw [rename_elem π (by decide), fill_normalize hπ (fine_join h2), fill_join]
      exact .math (h4 π hπ).1 (h4 π hπ).2
  | mi h => exact token (by decide) (P := MiSymbol) (fun h => .mi h) mi_alnum h
  | mo h => exact token (by decide) (P := MoSymbol) (cmds := []) (fun h => .mo h) mo_alnum h
  | mn h => exact token (by decide) (P := MnSymbol) (cmds := []) (fun h => .mn h) mn_alnum h
  | @mtext b A cs s h =>
    refine ⟨plain s, fine_plain _, bare_plain _, fun π _ => ?_, plainly_plain _⟩
    rw [rename_elem π (by decide), fill_plain]
    refine .mtext ?_
    have e : tokenData (renames π cs) = tokenData cs := by
      have hx := isElem_renames π cs
      unfold tokenData
      by_cases hc : ∃ n ∈ cs, n.isElem = true
      · rw [if_pos hc, if_pos (hx.2 hc)]
      · rw [if_neg hc, if_neg fun h => hc (hx.1 h)]
        cases cs with
        | nil => rfl
        | cons n ns => cases n <;> simp [renames, rename]
    rw [e]
    exact h
  | msqrt hl _ ih =>
    obtain ⟨us, rfl, h2, h3, h4⟩ := among hl ih
    refine ⟨plain c!"\\sqrt{" ++ joinM c!" " us ++ plain c!"}", fine_append (fine_append (fine_plain _) (fine_join h2)) (fine_plain _), ?_,
      fun π hπ => ?_, plainly_odd ⟨'{', by decide, by simp [mem_plain]⟩⟩
    · simp [bare_join, braces]
    · rw [rename_elem π (by decide)]
      have := Renders.msqrt (A := ‹_›) (h4 π hπ).1 (h4 π hπ).2
      simpa [fill_join, braces] using this
  | merror hl _ ih =>
    obtain ⟨us, rfl, h2, h3, h4⟩ := among hl ih
    refine ⟨plain c!"\\color{red}{" ++ joinM c!" " us ++ plain c!"}", fine_append (fine_append (fine_plain _) (fine_join h2)) (fine_plain _), ?_,
      fun π hπ => ?_, plainly_odd ⟨'{', by decide, by simp [mem_plain]⟩⟩
    · simp [bare_join, braces]
    · rw [rename_elem π (by decide)]
      have := Renders.merror (A := ‹_›) (h4 π hπ).1 (h4 π hπ).2
      simpa [fill_join, braces] using this
  | @menclose b A cs ss hl _ ih =>
    obtain ⟨us, rfl, h2, h3, h4⟩ := among hl ih
    refine ⟨plain (enclosure (attr A c!"notation")).1 ++ joinM c!" " us ++ plain (enclosure (attr A c!"notation")).2,
      fine_append (fine_append (fine_plain _) (fine_join h2)) (fine_plain _), ?_, fun π hπ => ?_, ?_⟩
    · simp [bare_join]
    · rw [rename_elem π (by decide)]
      have := Renders.menclose (A := A) (h4 π hπ).1 (h4 π hπ).2
      simpa [fill_join] using this
    · obtain ⟨c, hc, h⟩ := enclosure_odd (attr A c!"notation")
      refine plainly_odd ⟨c, hc, ?_⟩
      rcases h with h | h <;> simp [mem_plain, h]
  | mphantom =>
    refine ⟨[], fun _ h => (nomatch h), rfl, fun π _ => ?_, fun _ _ _ _ h => (nomatch h)⟩
    rw [rename_elem π (by decide)]
    exact .mphantom
  | @mfrac b A cs n d sn sd hk hb _ _ ih1 ih2 =>
    obtain ⟨u, hu⟩ := ih1
    obtain ⟨v, hv⟩ := ih2
    refine ⟨plain c!"\\frac{" ++ u ++ plain c!"}{" ++ v ++ plain c!"}",
      fine_append (fine_append (fine_append (fine_append (fine_plain _) hu.fine) (fine_plain _)) hv.fine) (fine_plain _), ?_, fun π hπ => ?_,
      plainly_odd ⟨'{', by decide, by simp [mem_plain]⟩⟩
    · simp [hu.here, hv.here, braces]
    · rw [rename_elem π (by decide)]
      have := Renders.mfrac (A := A) (cs := renames π cs) (by rw [kids_renames, hk]; rfl) hb (hu.there π hπ) (hv.there π hπ)
      simpa [braces] using this
  | @bevelled b A cs n d sn sd hk hb _ _ ih1 ih2 =>
    obtain ⟨u, hu⟩ := ih1
    obtain ⟨v, hv⟩ := ih2
    refine ⟨parensIfLongM u ++ plain c!"/" ++ parensIfLongM v,
      fine_append (fine_append (fine_parensIfLong hu.fine) (fine_plain _)) (fine_parensIfLong hv.fine), ?_, fun π hπ => ?_,
      plainly_odd ⟨'/', by decide, by simp [mem_plain]⟩⟩
    · simp [hu.here, hv.here, bare_parensIfLong]
    · rw [rename_elem π (by decide)]
      have := Renders.bevelled (A := A) (cs := renames π cs) (by rw [kids_renames, hk]; rfl) hb (hu.there π hπ) (hv.there π hπ)
      simpa [fill_parensIfLong] using this
  | @mroot b A cs n d sn sd hk _ _ ih1 ih2 =>
    obtain ⟨u, hu⟩ := ih1
    obtain ⟨v, hv⟩ := ih2
    refine ⟨plain c!"\\sqrt[" ++ v ++ plain c!"]{" ++ u ++ plain c!"}",
      fine_append (fine_append (fine_append (fine_append (fine_plain _) hv.fine) (fine_plain _)) hu.fine) (fine_plain _), ?_, fun π hπ => ?_,
      plainly_odd ⟨'{', by decide, by simp [mem_plain]⟩⟩
    · simp [hu.here, hv.here, braces]
    · rw [rename_elem π (by decide)]
      have := Renders.mroot (A := A) (cs := renames π cs) (by rw [kids_renames, hk]; rfl) (hu.there π hπ) (hv.there π hπ)
      simpa [braces] using this
  | @msup b A cs x e sx se hk _ _ ih1 ih2 =>
    obtain ⟨u, hu⟩ := ih1
    obtain ⟨v, hv⟩ := ih2
    refine ⟨scriptBaseM x u ++ plain c!"^{" ++ v ++ plain c!"}",
      fine_append (fine_append (fine_append (fine_scriptBase hu.fine) (fine_plain _)) hv.fine) (fine_plain _), ?_, fun π hπ => ?_,
      plainly_odd ⟨'{', by decide, by simp [mem_plain]⟩⟩
    · simp [hu.here, hv.here, bare_scriptBase, braces]
    · rw [rename_elem π (by decide)]
      have := Renders.msup (A := A) (cs := renames π cs) (by rw [kids_renames, hk]; rfl) (hu.there π hπ) (hv.there π hπ)
      simpa [fill_scriptBase, braces] using this
  | @msub b A cs x e sx se hk _ _ ih1 ih2 =>
    obtain ⟨u, hu⟩ := ih1
    obtain ⟨v, hv⟩ := ih2
    refine ⟨scriptBaseM x u ++ plain c!"_{" ++ v ++ plain c!"}",
      fine_append (fine_append (fine_append (fine_scriptBase hu.fine) (fine_plain _)) hv.fine) (fine_plain _), ?_, fun π hπ => ?_,
      plainly_odd ⟨'{', by decide, by simp [mem_plain]⟩⟩
    · simp [hu.here, hv.here, bare_scriptBase, braces]
    · rw [rename_elem π (by decide)]
      have := Renders.msub (A := A) (cs := renames π cs) (by rw [kids_renames, hk]; rfl) (hu.there π hπ) (hv.there π hπ)
      simpa [fill_scriptBase, braces] using this
  | @msubsup b A cs x d e sx sd se hk _ _ _ ih1 ih2 ih3 =>
    obtain ⟨u, hu⟩ := ih1
    obtain ⟨v, hv⟩ := ih2
    obtain ⟨w, hw⟩ := ih3
    refine ⟨scriptBaseM x u ++ plain c!"_{" ++ v ++ plain c!"}^{" ++ w ++ plain c!"}",
      fine_append (fine_append (fine_append (fine_append (fine_append (fine_scriptBase hu.fine) (fine_plain _)) hv.fine) (fine_plain _)) hw.fine) (fine_plain _), ?_,
      fun π hπ => ?_, plainly_odd ⟨'{', by decide, by simp [mem_plain]⟩⟩
    · simp [hu.here, hv.here, hw.here, bare_scriptBase, braces]
    · rw [rename_elem π (by decide)]
      have := Renders.msubsup (A := A) (cs := renames π cs) (by rw [kids_renames, hk]; rfl) (hu.there π hπ) (hv.there π hπ) (hw.there π hπ)
      simpa [fill_scriptBase, braces] using this
  | @munder b A cs x a sx sa hk _ _ ih1 ih2 =>
    obtain ⟨u, hu⟩ := ih1
    obtain ⟨v, hv⟩ := ih2
    refine ⟨stackedM c!"\\underset" u v, fine_stacked hu.fine hv.fine, by rw [bare_stacked, hu.here, hv.here], fun π hπ => ?_, plainly_stacked _ _ _⟩
    rw [rename_elem π (by decide), fill_stacked hπ _ _ hv.plainly]
    exact .munder (by rw [kids_renames, hk]; rfl) (hu.there π hπ) (hv.there π hπ)
  | @mover b A cs x a sx sa hk _ _ ih1 ih2 =>
    obtain ⟨u, hu⟩ := ih1
    obtain ⟨v, hv⟩ := ih2
    refine ⟨stackedM c!"\\overset" u v, fine_stacked hu.fine hv.fine, by rw [bare_stacked, hu.here, hv.here], fun π hπ => ?_, plainly_stacked _ _ _⟩
    rw [rename_elem π (by decide), fill_stacked hπ _ _ hv.plainly]
    exact .mover (by rw [kids_renames, hk]; rfl) (hu.there π hπ) (hv.there π hπ)
  | @munderover b A cs x d e sx sd se hk _ _ _ ih1 ih2 ih3 =>
    obtain ⟨u, hu⟩ := ih1
    obtain ⟨v, hv⟩ := ih2
    obtain ⟨w, hw⟩ := ih3
    refine ⟨u ++ plain c!"_{" ++ v ++ plain c!"}^{" ++ w ++ plain c!"}",
      fine_append (fine_append (fine_append (fine_append (fine_append hu.fine (fine_plain _)) hv.fine) (fine_plain _)) hw.fine) (fine_plain _), ?_,
      fun π hπ => ?_, plainly_odd ⟨'{', by decide, by simp [mem_plain]⟩⟩
    · simp [hu.here, hv.here, hw.here, braces]
    · rw [rename_elem π (by decide)]
      have := Renders.munderover (A := A) (cs := renames π cs) (by rw [kids_renames, hk]; rfl) (hu.there π hπ) (hv.there π hπ) (hw.there π hπ)
      simpa [braces] using this
  | @mmultiscripts b A cs x ks sx s1 s2 s3 s4 hk h2 _ _ _ _ _ ih0 ih1 ih2 ih3 ih4 =>
    obtain ⟨u, hu⟩ := ih0
    obtain ⟨u1, f1, e1, r1⟩ := script_template (f := Prod.fst) ih1
    obtain ⟨u2, f2, e2, r2⟩ := script_template (f := Prod.snd) ih2
    obtain ⟨u3, f3, e3, r3⟩ := script_template (f := Prod.fst) ih3
    obtain ⟨u4, f4, e4, r4⟩ := script_template (f := Prod.snd) ih4
    refine ⟨scriptsM c!"\\_" (prePair (kids cs)) u1 u2 ++ parensIfSpaceM u ++ scriptsM c!"_" (postPair (kids cs)) u3 u4,
      fine_append (fine_append (fine_scripts f1 f2) (fine_parensIfSpace hu.fine)) (fine_scripts f3 f4), ?_, fun π hπ => ?_, plainly_multi hu.plainly⟩
    · simp [bare_scripts, bare_parensIfSpace, hu.here, e1, e2, e3, e4]
    · have hs : ∀ {pair : Option (Node × Node)} (p q), (pair.map fun p => (rename π p.1, rename π p.2)) = some (p, q) →
          ∃ r, pair = some r ∧ p = rename π r.1 ∧ q = rename π r.2 := by
        intro pair p q h
        cases pair with
        | none => cases h
        | some r => cases h; exact ⟨r, rfl, rfl, rfl⟩
      rw [rename_elem π (by decide), fill_append, fill_append,
        fill_scripts π _ _ (fun p => (rename π p.1, rename π p.2)), fill_scripts π _ _ (fun p => (rename π p.1, rename π p.2)),
        fill_parensIfSpace hπ hu.fine, ← prePair_renames, ← postPair_renames, ← kids_renames]
      refine .mmultiscripts (x := rename π x) (ks := ks.map (rename π)) (by rw [kids_renames, hk]; rfl) (by simpa using h2) (hu.there π hπ) ?_ ?_ ?_ ?_
      all_goals
        intro p q h
        rw [kids_renames] at h
        first
          | rw [prePair_renames] at h
          | rw [postPair_renames] at h
      · obtain ⟨r, hr, rfl, rfl⟩ := hs p q h
        exact r1 π hπ r.1 r.2 hr
      · obtain ⟨r, hr, rfl, rfl⟩ := hs p q h
        exact r2 π hπ r.1 r.2 hr
      · obtain ⟨r, hr, rfl, rfl⟩ := hs p q h
        exact r3 π hπ r.1 r.2 hr
      · obtain ⟨r, hr, rfl, rfl⟩ := hs p q h
        exact r4 π hπ r.1 r.2 hr
  | @toggle b A cs ss ht hl _ ih =>
    obtain ⟨us, rfl, h2, h3, h4⟩ := among hl ih
    refine ⟨joinM c!" \\Longrightarrow " us, fine_join h2, bare_join _ _, fun π hπ => ?_,
      plainly_one (fun _ _ => plainly_odd ⟨'L', by decide, by simp [mem_plain]⟩) h3⟩
    rw [rename_elem π (by decide), fill_join]
    exact .toggle ht (h4 π hπ).1 (h4 π hπ).2
  | @maction b A cs x ks s ht hk _ ih =>
    obtain ⟨u, hu⟩ := ih
    refine ⟨u, hu.fine, hu.here, fun π hπ => ?_, hu.plainly⟩
    rw [rename_elem π (by decide)]
    exact .maction ht (ks := ks.map (rename π)) (by rw [kids_renames, hk]; rfl) (hu.there π hπ)
  | @mfenced b A cs ss ht hl _ ih =>
    obtain ⟨us, rfl, h2, h3, h4⟩ := among hl ih
    refine ⟨plain (c!"\\left" ++ orElse (attr A c!"open") c!"(") ++ interleaveM (separator (attr A c!"separators")) us ++
        plain (c!"\\right" ++ orElse (attr A c!"close") c!")"),
      fine_append (fine_append (fine_plain _) (fine_interleave h2)) (fine_plain _), ?_, fun π hπ => ?_,
      plainly_odd ⟨'f', by decide, by simp [mem_plain]⟩⟩
    · simp [bare_interleave, fence]
    · rw [rename_elem π (by decide)]
      have := Renders.mfenced (A := A) (fun h => ht ((hasTable_renames π cs).1 h)) (h4 π hπ).1 (h4 π hπ).2
      simpa [fill_interleave, fence] using this
  | @matrix b A cs ss ht hl _ ih =>
    obtain ⟨us, rfl, h2, h3, h4⟩ := among hl ih
    obtain ⟨x, y, ⟨w, hw⟩, hm⟩ := matrix_around (attr A c!"open") (attr A c!"close")
    refine ⟨plain x ++ us.flatten ++ plain y, fine_append (fine_append (fine_plain _) (fine_flatten h2)) (fine_plain _), ?_, fun π hπ => ?_,
      plainly_odd ⟨'}', by decide, by simp [mem_plain, hw]⟩⟩
    · rw [hm, bare_append, bare_append, bare_plain, bare_plain, bare_flatten]
    · rw [rename_elem π (by decide), fill_append, fill_append, fill_plain, fill_plain, fill_flatten, ← hm]
      exact .matrix ((hasTable_renames π cs).2 ht) (h4 π hπ).1 (h4 π hπ).2
  | @mtable A cs ss ht hl _ ih =>
    obtain ⟨us, rfl, h2, h3, h4⟩ := among hl ih
    refine ⟨joinM c!" \\\\\n" us, fine_join h2, bare_join _ _, fun π hπ => ?_, plainly_one plainly_two h3⟩
    rw [rename_elem π (by decide), fill_join]
    exact .mtable ht (h4 π hπ).1 (h4 π hπ).2
  | @innerTable b A cs ss ht hl _ ih =>
    obtain ⟨us, rfl, h2, h3, h4⟩ := among hl ih
    refine ⟨plain c!"\\begin{matrix}" ++ joinM c!" \\\\\n" us ++ plain c!"\\end{matrix}",
      fine_append (fine_append (fine_plain _) (fine_join h2)) (fine_plain _), ?_, fun π hπ => ?_, plainly_odd ⟨'{', by decide, by simp [mem_plain]⟩⟩
    · simp [bare_join]
    · rw [rename_elem π (by decide)]
      have := Renders.innerTable (A := A) ht (h4 π hπ).1 (h4 π hπ).2
      simpa [fill_join] using this
  | @mtr b A cs ss hl _ ih =>
    obtain ⟨us, rfl, h2, h3, h4⟩ := among hl ih
    refine ⟨joinM c!" & " us, fine_join h2, bare_join _ _, fun π hπ => ?_,
      plainly_one (fun _ _ => plainly_odd ⟨'&', by decide, by simp [mem_plain]⟩) h3⟩
    rw [rename_elem π (by decide), fill_join]
    exact .mtr (h4 π hπ).1 (h4 π hπ).2

/-! ## Failures -/

theorem violation_rename (π : Char → Char) (n : Node) : violation (rename π n) = violation n := by
  cases n with
  | elem tag A cs =>
    have hk : (kids (if tag ∈ nameTags then renameToken π (renames π cs) else renames π cs)) = (kids cs).map (rename π) := by
      split
      · rw [kids_renameToken, kids_renames]
      · exact kids_renames π cs
    simp only [rename, violation, hk, List.length_map, List.map_eq_nil_iff]
  | _ => rfl

theorem selected_rename (π : Char → Char) (n : Node) : selected (rename π n) = (selected n).map (rename π) := by
  cases n with
  | elem tag A cs =>
    have hk : (kids (if tag ∈ nameTags then renameToken π (renames π cs) else renames π cs)) = (kids cs).map (rename π) := by
      split
      · rw [kids_renameToken, kids_renames]
      · exact kids_renames π cs
    have hp : ∀ pair : Option (Node × Node), pairList (pair.map fun p => (rename π p.1, rename π p.2)) = (pairList pair).map (rename π) := by
      intro pair
      cases pair <;> rfl
    simp only [rename, selected, hk, prePair_renames, postPair_renames, hp]
    split
    · rfl
    · split
      · rw [List.map_take]
      · split
        · rw [List.map_append, List.map_append, List.map_take]
        · rfl
  | _ => rfl

theorem evaluated_rename (π : Char → Char) (n : Node) : evaluated (rename π n) = (evaluated n).map (rename π) := by
  rw [evaluated_eq, evaluated_eq n, selected_rename, List.map_cons, List.flatMap_map, List.map_flatMap]
  congr 1
  rw [List.flatMap_def, List.flatMap_def]
  congr 1
  refine List.map_congr_left fun m hm => ?_
  have := sizeOf_selected hm
  exact evaluated_rename π m
termination_by sizeOf n

theorem maths_renames (π : Char → Char) (d : Doc) : maths (renames π d) = (maths d).map (rename π) := by
  rw [maths, maths, elements_renames, List.filter_map]
  congr 1
  refine List.filter_congr fun n _ => ?_
  cases n <;> rfl

/-! ## The property -/

/-- **C98** The LaTeX of an element is a template: some of its letters and digits come from the names and numbers in the
element, and with other names and numbers the LaTeX has those in the same places, and is the same everywhere else. -/
theorem C98_element (b : Bool) (n : Node) (hn : n.isElem = true) (s : Str) (h : latexIn b n = .ok s) :
    ∃ u, Fine u ∧ u.map Prod.fst = s ∧ ∀ π, Names π → latexIn b (rename π n) = .ok (fill π u) := by
  obtain ⟨u, hu⟩ := template ((renders_iff hn b s).2 h)
  exact ⟨u, hu.fine, hu.here, fun π hπ => (hu.there π hπ).sound⟩

theorem template_all : ∀ {ns : List Node} {ss : List Str}, (∀ n ∈ ns, n.isElem = true) → ns.map latexOf = ss.map .ok →
    ∃ u, Fine u ∧ bare u = ss.flatten ∧ ∀ π, Names π → ∃ ts : List Str,
      (ns.map (rename π)).map latexOf = ts.map .ok ∧ fill π u = ts.flatten
  | [], [], _, _ => ⟨[], fun _ h => (nomatch h), rfl, fun _ _ => ⟨[], rfl, rfl⟩⟩
  | n :: ns, s :: ss, hn, h => by
    rw [List.map_cons, List.map_cons] at h
    injection h with h1 h2
    obtain ⟨u, hu1, hu2, hu3⟩ := C98_element false n (hn n (.head _)) s (by rw [← latexOf_eq]; exact h1)
    obtain ⟨v, hv1, hv2, hv3⟩ := template_all (fun m hm => hn m (.tail _ hm)) h2
    refine ⟨u ++ v, fine_append hu1 hv1, ?_, fun π hπ => ?_⟩
    · rw [bare_append, hv2, List.flatten_cons, ← hu2]; rfl
    · obtain ⟨ts, h3, h4⟩ := hv3 π hπ
      refine ⟨fill π u :: ts, ?_, by rw [fill_append, h4, List.flatten_cons]⟩
      rw [List.map_cons, List.map_cons, List.map_cons, h3, latexOf_eq, hu3 π hπ]

/-- **C98** The same for a document. -/
theorem C98_document (d : Doc) (s : Str) (h : docResult d = .ok s) :
    ∃ u, Fine u ∧ u.map Prod.fst = s ∧ ∀ π, Names π → docResult (renames π d) = .ok (fill π u) := by
  obtain ⟨ss, h1, rfl⟩ := (C04_document_order d s).1 h
  have he : ∀ n ∈ maths d, n.isElem = true := by
    intro n hn
    have := maths_isMath n hn
    cases n with
    | elem => rfl
    | _ => cases this
  obtain ⟨u, hu1, hu2, hu3⟩ := template_all he h1
  refine ⟨u, hu1, hu2, fun π hπ => ?_⟩
  obtain ⟨ts, h2, h3⟩ := hu3 π hπ
  refine (C04_document_order _ _).2 ⟨ts, ?_, h3⟩
  rw [maths_renames]
  exact h2

/-- **C98** at the API: all texts whose documents differ in names and numbers only have the same template. -/
theorem C98_convert (env : Env) (x : Str) (d : Doc) (hd : ParsesTo env x d) (s : Str) (h : convert env x = .ok s) :
    ∃ u, Fine u ∧ u.map Prod.fst = s ∧ ∀ π, Names π → ∀ env' x', ParsesTo env' x' (renames π d) →
      convert env' x' = .ok (fill π u) := by
  rw [hd.convert] at h
  obtain ⟨u, h1, h2, h3⟩ := C98_document d s h
  exact ⟨u, h1, h2, fun π hπ env' x' hd' => by rw [hd'.convert]; exact h3 π hπ⟩

/-- **C98** So the length of the result does not depend on which letters and digits there are. -/
theorem C98_length (env env' : Env) (x x' : Str) (d : Doc) (π : Char → Char) (hπ : Names π) (hd : ParsesTo env x d)
    (hd' : ParsesTo env' x' (renames π d)) (s : Str) (h : convert env x = .ok s) :
    ∃ s', convert env' x' = .ok s' ∧ s'.length = s.length := by
  obtain ⟨u, _, rfl, h3⟩ := C98_convert env x d hd s h
  exact ⟨_, h3 π hπ env' x' hd', by rw [length_fill, List.length_map]⟩

/-- **C98** Names and numbers do not matter for failures either: the same exception is raised. -/
theorem C98_raises (env env' : Env) (x x' : Str) (d : Doc) (π : Char → Char) (hd : ParsesTo env x d)
    (hd' : ParsesTo env' x' (renames π d)) (e : Exc) : convert env x = .error e ↔ convert env' x' = .error e := by
  rw [hd.convert, hd'.convert, C12_first_violation, C12_first_violation, maths_renames, List.flatMap_map]
  have : (fun a => evaluated (rename π a)) = fun a => (evaluated a).map (rename π) := funext (evaluated_rename π)
  rw [this, ← List.map_flatMap, List.findSome?_map]
  have : (violation ∘ rename π) = violation := funext (violation_rename π)
  rw [this]

/-- Every letter becomes the next one in a circle of three. -/
def turn (c : Char) : Char := if c = 'x' then 'y' else if c = 'y' then 'z' else if c = 'z' then 'x' else c

theorem turn_names : Names turn := by
  intro c hc
  unfold turn
  split
  · decide
  · split
    · decide
    · split
      · decide
      · exact hc

def hatNode : Node := .elem c!"math" [] [.elem c!"mover" [] [.elem c!"mi" [] [.text c!" x "], .elem c!"mo" [] [.text c!"^"]],
  .elem c!"msub" [] [.elem c!"mi" [(c!"mathvariant", c!"bold")] [.text c!"y"], .elem c!"mi" [] [.text c!"xy"]],
  .elem c!"mtext" [] [.text c!"x"], .elem c!"mi" [] [.text c!"α"]]

/-- Names in a token, with a font, as an index; the letters of commands and of texts stay. -/
example : docResult [hatNode] = .ok c!"\\hat{x} \\mathbf{y}_{xy} \\text{x} \\alpha" ∧
    docResult (renames turn [hatNode]) = .ok c!"\\hat{y} \\mathbf{z}_{yz} \\text{x} \\alpha" := by
  rw [docResult_eq, docResult_eq]
  decide +kernel

/-- Both are converted by the API, from whatever texts. -/
example (env env' : Env) (x x' : Str) (h : ParsesTo env x [hatNode]) (h' : ParsesTo env' x' (renames turn [hatNode])) :
    ∃ s, convert env' x' = .ok s ∧ s.length = 39 := by
  refine C98_length env env' x x' [hatNode] turn turn_names h h' c!"\\hat{x} \\mathbf{y}_{xy} \\text{x} \\alpha" ?_ |>.imp fun s hs => ⟨hs.1, hs.2.trans (by decide)⟩
  rw [h.convert, docResult_eq]
  decide +kernel

/-- A fraction without a denominator, whatever the numerator. -/
example (env env' : Env) (x x' : Str) (h : ParsesTo env x [.elem c!"math" [] [.elem c!"mfrac" [] [.elem c!"mi" [] [.text c!"x"]]]])
    (h' : ParsesTo env' x' [.elem c!"math" [] [.elem c!"mfrac" [] [.elem c!"mi" [] [.text c!"y"]]]]) :
    convert env' x' = .error (.invalidChildren c!"mfrac" 2 1 c!"exactly") := by
  refine (C98_raises env env' x x' _ turn h h' _).1 ?_
  rw [h.convert, docResult_eq]
  decide +kernel

/-- **C98** For other characters this is not so: a Greek letter in place of `x` has a name of its own. -/
theorem C98_only_ascii : ∃ (d : Doc) (π : Char → Char) (s s' : Str), docResult d = .ok s ∧ docResult (renames π d) = .ok s' ∧
    s.length ≠ s'.length := by
  refine ⟨[.elem c!"math" [] [.elem c!"mi" [] [.text c!"x"]]], fun _ => 'α', c!"x", c!"\\alpha", ?_, ?_, by decide⟩ <;>
    rw [docResult_eq] <;> decide +kernel

end Verif
