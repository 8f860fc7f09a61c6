import Verif.Spec.Xml

/-!
# A reader of XML

`Xml.read` computes the document of every XML text (it also takes some texts that are not XML).
Hence a text stands for one document only, and correct parsers exist.
-/

namespace Verif.Xml
open Spec Spec.Xml

/-! ## The reader -/

/-- The number written with these digits. -/
def numeral (b : Nat) (ds : Str) : Option Nat :=
  if ds = [] then none
  else ds.foldl (fun n c => match n, digit c with
    | some n, some k => if k < b then some (b * n + k) else none
    | _, _ => none) (some 0)

/-- The character with this number. -/
def charOf (n : Nat) : Option Char := if h : n.isValidChar then some (Char.ofNatAux n h) else none

/-- The character of a reference. -/
def deref : Str → Option Char
  | '#' :: 'x' :: ds => (numeral 16 ds).bind charOf
  | '#' :: ds => (numeral 10 ds).bind charOf
  | r => (entities.find? fun p => p.1 = r).map fun p => p.2

/-- Resolve the references; the argument in front is the beginning of an open reference. -/
def decode (as : Char → Char) : Option Str → Str → Option Str
  | none, [] => some []
  | some _, [] => none
  | none, c :: s => if c = '&' then decode as (some []) s else (decode as none s).map (as c :: ·)
  | some r, c :: s =>
    if c = ';' then (deref r).bind fun c => (decode as none s).map (c :: ·)
    else decode as (some (r ++ [c])) s

/-- The text before and after the first occurrence of `p`. -/
def until_ (p : Str) : Str → Option (Str × Str)
  | [] => if p = [] then some ([], []) else none
  | c :: s =>
    if p.isPrefixOf (c :: s) then some ([], (c :: s).drop p.length)
    else (until_ p s).map fun r => (c :: r.1, r.2)

/-- Characters of attribute names. -/
def attrChar (c : Char) : Bool := nameChar c || c == ':'

/-- The attributes of a tag, and what follows them. -/
def attributes : Nat → Str → Option (List (Str × Str) × Str)
  | 0, _ => none
  | k + 1, s =>
    let s := s.dropWhile blank
    let n := s.takeWhile attrChar
    if n = [] then some ([], s)
    else
      match (s.dropWhile attrChar).dropWhile blank with
      | '=' :: s =>
        match s.dropWhile blank with
        | q :: s =>
          match decode valueAs none (s.takeWhile (· != q)), attributes k ((s.dropWhile (· != q)).drop 1) with
          | some d, some (as, r) => some ((n, d) :: as, r)
          | _, _ => none
        | [] => none
      | _ => none

/-- What follows the `>` of a declaration; in quotation marks, `>` does not count. -/
def decl : Option Char → Str → Option Str
  | _, [] => none
  | none, c :: s =>
    if c = '>' then some s else decl (if c = '"' ∨ c = '\'' then some c else none) s
  | some q, c :: s =>
    if c = q then if s.head?.any (fun c => blank c || c == '>') then decl none s else none
    else decl (some q) s

/-- The nodes at the beginning of the text, and what follows them.  A document type declaration is
returned as if it were a version declaration. -/
def content : Nat → Str → Option (List Node × Str)
  | 0, _ => none
  | k + 1, s =>
    let more (n : Node) (s : Str) := (content k s).map fun r => (n :: r.1, r.2)
    match s with
    | [] => some ([], [])
    | '<' :: '/' :: s => some ([], '<' :: '/' :: s)
    | '<' :: '!' :: '-' :: '-' :: s => (until_ c!"-->" s).bind fun r => more (.comment r.1) r.2
    | '<' :: '!' :: 'D' :: s => (decl none s).bind fun r => more (.pi c!"xml" []) r
    | '<' :: '!' :: s => (until_ c!"]]>" (s.drop 7)).bind fun r => more (.cdata r.1) r.2
    | '<' :: '?' :: s => (until_ c!"?>" s).bind fun r =>
        more (.pi (r.1.takeWhile nameChar) ((r.1.dropWhile nameChar).dropWhile blank)) r.2
    | '<' :: s =>
      let n := s.takeWhile nameChar
      match attributes (s.length + 1) (s.dropWhile nameChar) with
      | some (as, '/' :: '>' :: s) => more (.elem n as []) s
      | some (as, '>' :: s) =>
        match content k s with
        | some (ms, '<' :: '/' :: s) =>
          match (s.drop n.length).dropWhile blank with
          | '>' :: s => more (.elem n as ms) s
          | _ => none
        | _ => none
      | _ => none
    | s => (decode id none (s.takeWhile (· != '<'))).bind fun d =>
        more (.text d) (s.dropWhile (· != '<'))

/-- Nodes of the document. -/
def inDoc : Node → Bool
  | .text _ => false
  | .pi t _ => t != c!"xml"
  | _ => true

/-- The document of a text. -/
def read (x : Str) : Option Doc :=
  match content ((eol x).length + 1) (eol x) with
  | some (ns, []) => some (ns.filter inDoc)
  | _ => none

/-! ## References -/

theorem foldl_none {b : Nat} (ds : Str) :
    ds.foldl (fun n c => match n, digit c with
      | some n, some k => if k < b then some (b * n + k) else none
      | _, _ => none) none = none := by
  induction ds with
  | nil => rfl
  | cons c ds ih => exact ih

theorem numeral_of {b : Nat} {ds : Str} {n : Nat} (h : Numeral b ds n) :
    ds ≠ [] ∧ (∀ c ∈ ds, (digit c).isSome = true) ∧ numeral b ds = some n := by
  induction h with
  | @one c k h1 h2 => simp [numeral, h1, h2]
  | @more ds n c k _ h1 h2 ih =>
    obtain ⟨i1, i2, i3⟩ := ih
    refine ⟨by simp, ?_, ?_⟩
    · intro d hd
      rcases List.mem_append.1 hd with hd | hd
      · exact i2 d hd
      · rw [List.mem_singleton.1 hd, h1]; rfl
    · rw [numeral, if_neg i1] at i3
      rw [numeral, if_neg (by simp), List.foldl_append, i3]
      simp [h1, h2]

theorem charOf_toNat (c : Char) : charOf c.toNat = some c := by
  have : c.toNat.isValidChar := c.valid
  rw [charOf, dif_pos this]
  congr 1

theorem deref_of {r : Str} {c : Char} (h : Refers r c) : deref r = some c ∧ ';' ∉ r := by
  cases h with
  | entity h =>
    have : ∀ p ∈ entities, deref p.1 = some p.2 ∧ ';' ∉ p.1 := by decide +kernel
    exact this _ h
  | @dec ds c h _ =>
    obtain ⟨h1, h2, h3⟩ := numeral_of h
    have h4 : ';' ∉ ds := fun h => by have := h2 _ h; revert this; decide
    refine ⟨?_, by simp [h4]⟩
    have : ∀ u, ds ≠ 'x' :: u := by
      rintro u rfl
      have := h2 'x' (by simp); revert this; decide
    rw [deref]
    · rw [h3]; exact charOf_toNat c
    · intro u e
      exact this u (by simpa using e)
  | @hex ds c h _ =>
    obtain ⟨h1, h2, h3⟩ := numeral_of h
    have h4 : ';' ∉ ds := fun h => by have := h2 _ h; revert this; decide
    refine ⟨?_, by simp [h4]⟩
    rw [deref, h3]; exact charOf_toNat c

theorem decode_ref (as : Char → Char) {r : Str} (h : ';' ∉ r) (r0 x : Str) :
    decode as (some r0) (r ++ ';' :: x) =
      (deref (r0 ++ r)).bind fun c => (decode as none x).map (c :: ·) := by
  induction r generalizing r0 with
  | nil => simp [decode]
  | cons c r ih =>
    have hc : c ≠ ';' := fun e => h (by simp [e])
    rw [List.cons_append, decode, if_neg hc, ih (fun hm => h (by simp [hm]))]
    simp

theorem decode_of {ok : Char → Bool} {as : Char → Char} (hok : ok '&' = false) {x d : Str}
    (h : Spelled ok as x d) : decode as none x = some d := by
  induction h with
  | nil => rfl
  | @raw c x d hc _ ih =>
    have : c ≠ '&' := by rintro rfl; rw [hok] at hc; cases hc
    rw [decode, if_neg this, ih]; rfl
  | @ref r c x d hr _ ih =>
    obtain ⟨h1, h2⟩ := deref_of hr
    rw [decode, if_pos rfl, decode_ref as h2, List.nil_append, h1, ih]; rfl

/-! ## Runs of characters -/

theorem takeWhile_append {p : Char → Bool} {a r : Str} (ha : ∀ c ∈ a, p c = true)
    (hr : ∀ c t, r = c :: t → p c = false) :
    (a ++ r).takeWhile p = a ∧ (a ++ r).dropWhile p = r := by
  induction a with
  | nil =>
    cases r with
    | nil => exact ⟨rfl, rfl⟩
    | cons c t => simp [hr c t rfl]
  | cons c a ih =>
    obtain ⟨h1, h2⟩ := ih fun d hd => ha d (List.mem_cons_of_mem _ hd)
    have := ha c List.mem_cons_self
    simp [this, h1, h2]

theorem until_of {p t r : Str} (hp : p ≠ [])
    (h : ∀ u v, t = u ++ v → v ≠ [] → p.isPrefixOf (v ++ (p ++ r)) = false) :
    until_ p (t ++ (p ++ r)) = some (t, r) := by
  induction t with
  | nil =>
    cases p with
    | nil => exact absurd rfl hp
    | cons c p =>
      rw [List.nil_append, List.cons_append, until_, if_pos]
      · simp
      · rw [← List.cons_append, List.isPrefixOf_iff_prefix]
        exact List.prefix_append _ _
  | cons c t ih =>
    rw [List.cons_append, until_, if_neg, ih]
    · rfl
    · intro u v e hv
      exact h (c :: u) v (by rw [e]; rfl) hv
    · have := h [] (c :: t) rfl (by simp)
      rw [List.cons_append] at this
      rw [this]; simp

theorem without_prefix {p s : Str} (h : Without p s) {u v : Str} (e : s = u ++ v) (q : Str) :
    v ≠ p ++ q := by
  rintro rfl
  exact h ⟨u, q, e⟩

/-! ## Attributes -/

/-- The end of a tag. -/
def TagEnd (r : Str) : Prop := ∃ t, r = '/' :: '>' :: t ∨ r = '>' :: t

theorem TagEnd.head {r : Str} (h : TagEnd r) : ∀ c t, r = c :: t →
    blank c = false ∧ attrChar c = false := by
  obtain ⟨t, rfl | rfl⟩ := h <;> rintro c u ⟨⟩ <;> decide

theorem nameChar_blank {c : Char} (h : attrChar c = true) : blank c = false := by
  cases hb : blank c with
  | false => rfl
  | true =>
    simp only [blank, Bool.or_eq_true, beq_iff_eq] at hb
    rcases hb with (rfl | rfl) | rfl <;> revert h <;> decide

theorem attrName_chars {n : Str} (h : AttrName n) : n ≠ [] ∧ ∀ c ∈ n, attrChar c = true := by
  rcases h with ⟨⟨c, t, rfl, -⟩, h⟩ | rfl
  · exact ⟨by simp, fun d hd => by simp [attrChar, h d hd]⟩
  · exact ⟨by simp, by decide⟩

theorem blank_attrChar {c : Char} (h : blank c = true) : attrChar c = false := by
  cases hb : attrChar c with
  | false => rfl
  | true => rw [nameChar_blank hb] at h; cases h

/-- Not a blank. -/
theorem head_cons {p : Char → Bool} {a : Char} {r : Str} (h : p a = false) :
    ∀ c t, a :: r = c :: t → p c = false := by
  rintro c t ⟨⟩; exact h

/-- Blanks and something else. -/
theorem head_blanks {p : Char → Bool} {e r : Str} (he : ∀ c ∈ e, blank c = true)
    (hp : ∀ c, blank c = true → p c = false) (hr : ∀ c t, r = c :: t → p c = false) :
    ∀ c t, e ++ r = c :: t → p c = false := by
  cases e with
  | nil => exact hr
  | cons a e => rintro c t ⟨⟩; exact hp _ (he _ List.mem_cons_self)

theorem spelled_chars {q : Char} (hq : q = '"' ∨ q = '\'') {v d : Str}
    (h : Spelled (valueOk q) valueAs v d) : ∀ c ∈ v, (c != q) = true := by
  induction h with
  | nil => simp
  | @raw c x d hc _ ih =>
    simp only [List.mem_cons]
    rintro a (rfl | ha)
    · simp only [valueOk, Bool.and_eq_true] at hc; exact hc.2
    · exact ih a ha
  | @ref r c x d hr _ ih =>
    have key : ∀ a ∈ r, (a != q) = true := by
      have hd : ∀ a, (digit a).isSome = true → (a != q) = true := by
        intro a ha
        rcases hq with rfl | rfl <;> (rw [bne_iff_ne]; rintro rfl; revert ha; decide)
      cases hr with
      | entity h =>
        have : ∀ p ∈ entities, ∀ a ∈ p.1, (a != '"') = true ∧ (a != '\'') = true := by decide
        intro a ha
        rcases hq with rfl | rfl
        · exact (this _ h a ha).1
        · exact (this _ h a ha).2
      | dec h _ =>
        simp only [List.mem_cons]
        rintro a (rfl | ha)
        · rcases hq with rfl | rfl <;> decide
        · exact hd a ((numeral_of h).2.1 a ha)
      | hex h _ =>
        simp only [List.mem_cons]
        rintro a (rfl | rfl | ha)
        · rcases hq with rfl | rfl <;> decide
        · rcases hq with rfl | rfl <;> decide
        · exact hd a ((numeral_of h).2.1 a ha)
    simp only [List.mem_cons, List.mem_append]
    rintro a (rfl | ha | rfl | ha)
    · rcases hq with rfl | rfl <;> decide
    · exact key a ha
    · rcases hq with rfl | rfl <;> decide
    · exact ih a ha

theorem attributes_of {a : Str} {as : List (Str × Str)} (h : Attributes a as) :
    ∀ {r : Str} {k : Nat}, TagEnd r → a.length < k → attributes k (a ++ r) = some (as, r) := by
  induction h with
  | @nil w hw =>
    intro r k hr hk
    obtain ⟨k, rfl⟩ : ∃ j, k = j + 1 := ⟨k - 1, by omega⟩
    have h1 := (takeWhile_append hw fun c t e => (hr.head c t e).1).2
    have h2 := takeWhile_append (p := attrChar) (a := []) (r := r) (by simp)
      fun c t e => (hr.head c t e).2
    simp only [attributes, h1]
    rw [List.nil_append] at h2
    rw [if_pos h2.1]
  | @cons w n e e' q v d x as hw hw' hn he he' hq hv _ ih =>
    intro r k hr hk
    obtain ⟨k, rfl⟩ : ∃ j, k = j + 1 := ⟨k - 1, by omega⟩
    simp only [List.length_append, List.length_cons] at hk
    have ih := ih (r := r) (k := k) hr (by omega)
    obtain ⟨n1, n2⟩ := attrName_chars hn
    have e0 : w ++ (n ++ (e ++ '=' :: (e' ++ q :: (v ++ q :: x)))) ++ r =
        w ++ (n ++ (e ++ '=' :: (e' ++ q :: (v ++ q :: (x ++ r))))) := by simp
    have h1 := (takeWhile_append (r := n ++ (e ++ '=' :: (e' ++ q :: (v ++ q :: (x ++ r))))) hw'
      (by
        cases n with
        | nil => exact absurd rfl n1
        | cons c n => exact head_cons (nameChar_blank (n2 c (by simp))))).2
    have h2 := takeWhile_append (r := e ++ '=' :: (e' ++ q :: (v ++ q :: (x ++ r)))) n2
      (head_blanks he (fun c => blank_attrChar) (head_cons (by decide)))
    have h3 := (takeWhile_append (r := '=' :: (e' ++ q :: (v ++ q :: (x ++ r)))) he
      (head_cons (by decide))).2
    have h4 := (takeWhile_append (r := q :: (v ++ q :: (x ++ r))) he'
      (head_cons (by rcases hq with rfl | rfl <;> decide))).2
    have h5 := takeWhile_append (r := q :: (x ++ r)) (spelled_chars hq hv)
      (head_cons (by simp))
    have h6 := decode_of (by rcases hq with rfl | rfl <;> decide) hv
    rw [e0, attributes]
    simp only [h1, h2.1, h2.2, h3, h4, h5.1, h5.2, h6, List.drop_succ_cons, List.drop_zero, ih,
      if_neg n1]

/-! ## Content -/

/-- The end of the content of an element, or of the text. -/
def ContentEnd (r : Str) : Prop := r = [] ∨ ∃ t, r = '<' :: '/' :: t

theorem content_head {y : Str} {ns : List Node} (h : Content y ns) (hn : NoText ns) :
    y = [] ∨ ∃ t, y = '<' :: t := by
  cases h with
  | nil => exact .inl rfl
  | text => exact absurd rfl (hn _ _)
  | _ => exact .inr ⟨_, rfl⟩

theorem text_chars {x d : Str} (h : Spelled textOk id x d) : ∀ c ∈ x, (c != '<') = true := by
  induction h with
  | nil => simp
  | @raw c x d hc _ ih =>
    simp only [List.mem_cons]
    rintro a (rfl | ha)
    · simp only [textOk, Bool.and_eq_true] at hc; exact hc.1.1.2
    · exact ih a ha
  | @ref r c x d hr _ ih =>
    have hd : ∀ a, (digit a).isSome = true → (a != '<') = true := by
      intro a ha
      rw [bne_iff_ne]; rintro rfl; revert ha; decide
    have key : ∀ a ∈ r, (a != '<') = true := by
      cases hr with
      | entity h =>
        have : ∀ p ∈ entities, ∀ a ∈ p.1, (a != '<') = true := by decide
        exact this _ h
      | dec h _ =>
        simp only [List.mem_cons]
        rintro a (rfl | ha)
        · decide
        · exact hd a ((numeral_of h).2.1 a ha)
      | hex h _ =>
        simp only [List.mem_cons]
        rintro a (rfl | rfl | ha)
        · decide
        · decide
        · exact hd a ((numeral_of h).2.1 a ha)
    simp only [List.mem_cons, List.mem_append]
    rintro a (rfl | ha | rfl | ha)
    · decide
    · exact key a ha
    · decide
    · exact ih a ha

theorem content_text {k : Nat} {x y d : Str} (hx : x ≠ []) (hs : Spelled textOk id x d)
    (hy : y = [] ∨ ∃ t, y = '<' :: t) :
    content (k + 1) (x ++ y) = (content k y).map fun r => (.text d :: r.1, r.2) := by
  have hc := text_chars hs
  have h1 := takeWhile_append hc (r := y) (by
    rcases hy with rfl | ⟨t, rfl⟩
    · simp
    · exact head_cons (by decide))
  have hd := decode_of (by decide) hs
  cases x with
  | nil => exact absurd rfl hx
  | cons c x =>
    have hne : c ≠ '<' := by simpa using hc c (by simp)
    rw [List.cons_append] at h1 ⊢
    rw [content]
    · rw [h1.1, h1.2, hd]; rfl
    all_goals simp [hne]

theorem without_append {c : Char} {p a b : Str} (ha : ∀ d ∈ a, d ≠ c) (hb : Without (c :: p) b) :
    Without (c :: p) (a ++ b) := by
  induction a with
  | nil => exact hb
  | cons d a ih =>
    rintro ⟨u, q, e⟩
    cases u with
    | nil =>
      rw [List.nil_append, List.cons_append, List.cons_append, List.cons.injEq] at e
      exact ha d (by simp) e.1
    | cons d' u =>
      rw [List.cons_append, List.cons_append, List.cons.injEq] at e
      exact ih (fun x hx => ha x (by simp [hx])) ⟨u, q, e.2⟩

theorem until_pi {t r : Str} (h : Without c!"?>" t) : until_ c!"?>" (t ++ (c!"?>" ++ r)) = some (t, r) := by
  refine until_of (by simp) ?_
  rintro u v rfl hv
  match v, hv with
  | [a], _ => simp [List.isPrefixOf]
  | a :: b :: v, _ =>
    cases hp : List.isPrefixOf c!"?>" (a :: b :: v ++ (c!"?>" ++ r)) with
    | false => rfl
    | true =>
      simp [List.isPrefixOf] at hp
      exact absurd ⟨u, v, by rw [← hp.1, ← hp.2]; rfl⟩ h

theorem until_cdata {t r : Str} (h : Without c!"]]>" t) :
    until_ c!"]]>" (t ++ (c!"]]>" ++ r)) = some (t, r) := by
  refine until_of (by simp) ?_
  rintro u v rfl hv
  match v, hv with
  | [a], _ => simp [List.isPrefixOf]
  | [a, b], _ => simp [List.isPrefixOf]
  | a :: b :: c :: v, _ =>
    cases hp : List.isPrefixOf c!"]]>" (a :: b :: c :: v ++ (c!"]]>" ++ r)) with
    | false => rfl
    | true =>
      simp [List.isPrefixOf] at hp
      exact absurd ⟨u, v, by rw [← hp.1, ← hp.2.1, ← hp.2.2]; rfl⟩ h

theorem until_comment {t r : Str} (h : Without c!"--" (t ++ c!"-")) :
    until_ c!"-->" (t ++ (c!"-->" ++ r)) = some (t, r) := by
  refine until_of (by simp) ?_
  rintro u v rfl hv
  match v, hv with
  | [a], _ =>
    cases hp : List.isPrefixOf c!"-->" ([a] ++ (c!"-->" ++ r)) with
    | false => rfl
    | true =>
      simp [List.isPrefixOf] at hp
  | a :: b :: v, _ =>
    cases hp : List.isPrefixOf c!"-->" (a :: b :: v ++ (c!"-->" ++ r)) with
    | false => rfl
    | true =>
      simp only [List.cons_append, List.isPrefixOf, Bool.and_eq_true, beq_iff_eq] at hp
      exact absurd ⟨u, v ++ c!"-", by rw [← hp.1, ← hp.2.1]; simp⟩ h

theorem content_pi {k : Nat} {t w d y : Str} (ht : ∀ c ∈ t, nameChar c = true)
    (hw : ∀ c ∈ w, blank c = true) (hwd : w = [] → d = [])
    (hd : ∀ c u, d = c :: u → blank c = false) (h : Without c!"?>" d) :
    content (k + 1) (c!"<?" ++ (t ++ (w ++ (d ++ (c!"?>" ++ y))))) =
      (content k y).map fun r => (.pi t d :: r.1, r.2) := by
  have h1 : Without c!"?>" (t ++ (w ++ d)) :=
    without_append (fun c hc => by rintro rfl; have := ht _ hc; revert this; decide)
      (without_append (fun c hc => by rintro rfl; have := hw _ hc; revert this; decide) h)
  have e : c!"<?" ++ (t ++ (w ++ (d ++ (c!"?>" ++ y)))) =
      '<' :: '?' :: ((t ++ (w ++ d)) ++ (c!"?>" ++ y)) := by simp
  have h2 := takeWhile_append (p := nameChar) (r := w ++ d) ht (by
    cases w with
    | nil => rw [hwd rfl]; simp
    | cons c w =>
      refine head_cons ?_
      cases hn : nameChar c with
      | false => rfl
      | true =>
        have := nameChar_blank (c := c) (by simp [attrChar, hn])
        rw [hw c (by simp)] at this; cases this)
  have h3 := takeWhile_append hw hd
  rw [e, content, until_pi h1]
  simp only [Option.bind_some, h2.1, h2.2, h3.2]

theorem name_head {n : Str} (h : Name n) (y : Str) : ∃ c t, n ++ y = c :: t ∧ c ≠ '/' ∧ c ≠ '!' ∧
    c ≠ '?' := by
  obtain ⟨⟨c, t, rfl, hc⟩, -⟩ := h
  exact ⟨c, t ++ y, rfl, by rintro rfl; revert hc; decide, by rintro rfl; revert hc; decide,
    by rintro rfl; revert hc; decide⟩

theorem attributes_head {a : Str} {as : List (Str × Str)} (h : Attributes a as) {r : Str}
    (hr : TagEnd r) : ∀ c t, a ++ r = c :: t → nameChar c = false := by
  have hb : ∀ c, blank c = true → nameChar c = false := by
    intro c hc
    have := blank_attrChar hc
    simp only [attrChar, Bool.or_eq_false_iff] at this
    exact this.1
  cases h with
  | nil hw =>
    refine head_blanks hw hb fun c t e => ?_
    have := (hr.head c t e).2
    simp only [attrChar, Bool.or_eq_false_iff] at this
    exact this.1
  | @cons w n e e' q v d x as hw hw' =>
    cases w with
    | nil => exact absurd rfl hw
    | cons c w => exact head_cons (hb _ (hw' c (by simp)))

/-- A start tag. -/
theorem content_tag {k : Nat} {n a r : Str} {as : List (Str × Str)} (hn : Name n)
    (ha : Attributes a as) (hr : TagEnd r) :
    content (k + 1) ('<' :: (n ++ (a ++ r))) =
      match (some (as, r) : Option (List (Str × Str) × Str)) with
      | some (as, '/' :: '>' :: s) => (content k s).map fun r => (.elem n as [] :: r.1, r.2)
      | some (as, '>' :: s) =>
        match content k s with
        | some (ms, '<' :: '/' :: s) =>
          match (s.drop n.length).dropWhile blank with
          | '>' :: s => (content k s).map fun r => (.elem n as ms :: r.1, r.2)
          | _ => none
        | _ => none
      | _ => none := by
  have h1 := takeWhile_append hn.2 (attributes_head ha hr)
  have h2 := attributes_of ha (k := (n ++ (a ++ r)).length + 1) hr (by
    simp only [List.length_append]; omega)
  obtain ⟨c, t, e, e1, e2, e3⟩ := name_head hn (a ++ r)
  rw [e] at h1 h2 ⊢
  rw [content]
  · rw [h1.1, h1.2, h2]
  all_goals simp [e1, e2, e3]

theorem content_of {x : Str} {ns : List Node} (h : Content x ns) : ∀ {r : Str} {k : Nat},
    ContentEnd r → x.length < k → content k (x ++ r) = some (ns, r) := by
  induction h with
  | nil =>
    intro r k hr hk
    obtain ⟨k, rfl⟩ : ∃ j, k = j + 1 := ⟨k - 1, by omega⟩
    rcases hr with rfl | ⟨t, rfl⟩
    · rfl
    · rw [List.nil_append, content]
  | @text x d y ns hx hs _ hn hy ih =>
    intro r k hr hk
    obtain ⟨k, rfl⟩ : ∃ j, k = j + 1 := ⟨k - 1, by omega⟩
    have : 0 < x.length := List.length_pos_iff.2 hx
    simp only [List.length_append] at hk
    rw [List.append_assoc, content_text hx hs, ih hr (by omega)]
    · rfl
    · rcases content_head hy hn with rfl | ⟨t, rfl⟩
      · rcases hr with rfl | ⟨t, rfl⟩
        · exact .inl rfl
        · exact .inr ⟨_, rfl⟩
      · exact .inr ⟨_, rfl⟩
  | @empty n a as y ns hn ha _ _ ih =>
    intro r k hr hk
    obtain ⟨k, rfl⟩ : ∃ j, k = j + 1 := ⟨k - 1, by omega⟩
    simp only [List.length_append, List.length_cons] at hk
    have e : '<' :: (n ++ (a ++ '/' :: '>' :: y)) ++ r = '<' :: (n ++ (a ++ '/' :: '>' :: (y ++ r))) := by
      simp
    rw [e, content_tag hn ha ⟨_, .inl rfl⟩]
    simp only [ih hr (by omega : y.length < k)]
    rfl
  | @elem n a as x ms w y ns hn ha _ _ hw _ ih1 ih2 =>
    intro r k hr hk
    obtain ⟨k, rfl⟩ : ∃ j, k = j + 1 := ⟨k - 1, by omega⟩
    simp only [List.length_append, List.length_cons] at hk
    have e : '<' :: (n ++ (a ++ '>' :: (x ++ '<' :: '/' :: (n ++ (w ++ '>' :: y))))) ++ r =
        '<' :: (n ++ (a ++ '>' :: (x ++ '<' :: '/' :: (n ++ (w ++ '>' :: (y ++ r)))))) := by simp
    have h1 := ih1 (r := '<' :: '/' :: (n ++ (w ++ '>' :: (y ++ r)))) (k := k) (.inr ⟨_, rfl⟩)
      (by omega)
    have h2 := (takeWhile_append (r := '>' :: (y ++ r)) hw (head_cons (by decide))).2
    rw [e, content_tag hn ha ⟨_, .inr rfl⟩]
    simp only [h1, List.drop_left, h2, ih2 hr (by omega : y.length < k)]
    rfl
  | @comment t y ns _ ht _ ih =>
    intro r k hr hk
    obtain ⟨k, rfl⟩ : ∃ j, k = j + 1 := ⟨k - 1, by omega⟩
    simp only [List.length_append, List.length_cons] at hk
    have e : c!"<!--" ++ (t ++ (c!"-->" ++ y)) ++ r =
        '<' :: '!' :: '-' :: '-' :: (t ++ (c!"-->" ++ (y ++ r))) := by simp
    rw [e, content, until_comment ht]
    simp only [Option.bind_some, ih hr (by omega : y.length < k)]
    rfl
  | @cdata t y ns _ _ ht _ ih =>
    intro r k hr hk
    obtain ⟨k, rfl⟩ : ∃ j, k = j + 1 := ⟨k - 1, by omega⟩
    simp only [List.length_append, List.length_cons] at hk
    have e : c!"<![CDATA[" ++ (t ++ (c!"]]>" ++ y)) ++ r =
        '<' :: '!' :: (c!"[CDATA[" ++ (t ++ (c!"]]>" ++ (y ++ r)))) := by simp
    have e' : (c!"[CDATA[" ++ (t ++ (c!"]]>" ++ (y ++ r)))).drop 7 = t ++ (c!"]]>" ++ (y ++ r)) := rfl
    rw [e, content]
    · rw [e', until_cdata ht]
      simp only [Option.bind_some, ih hr (by omega : y.length < k)]
      rfl
    · simp
    · simp
  | @pi t w d y ns ht _ hw hwd hd _ h _ ih =>
    intro r k hr hk
    obtain ⟨k, rfl⟩ : ∃ j, k = j + 1 := ⟨k - 1, by omega⟩
    simp only [List.length_append, List.length_cons] at hk
    have e : c!"<?" ++ (t ++ (w ++ (d ++ (c!"?>" ++ y)))) ++ r =
        c!"<?" ++ (t ++ (w ++ (d ++ (c!"?>" ++ (y ++ r))))) := by simp
    rw [e, content_pi ht.2 hw hwd hd h, ih hr (by omega : y.length < k)]
    rfl

/-! ## Documents -/

theorem content_append {x y : Str} {ns ms : List Node} (h : Content x ns) (h' : Content y ms)
    (hm : NoText ms ∨ ∀ d, Node.text d ∉ ns) : Content (x ++ y) (ns ++ ms) := by
  have hk : ∀ {n : Node} {ns : List Node}, (NoText ms ∨ ∀ d, Node.text d ∉ n :: ns) →
      (NoText ms ∨ ∀ d, Node.text d ∉ ns) := fun h =>
    h.imp_right fun h d hd => h d (List.mem_cons_of_mem _ hd)
  induction h with
  | nil => exact h'
  | @text x d z ns hx hs hw hn _ ih =>
    rw [List.append_assoc]
    refine .text hx hs hw ?_ (ih (hk hm))
    cases ns with
    | nil => exact hm.resolve_right fun h => h d (by simp)
    | cons n ns =>
      rintro d' ms' ⟨⟩
      exact hn _ _ rfl
  | empty hn ha hd _ ih => simpa using Content.empty hn ha hd (ih (hk hm))
  | elem hn ha hd hx hw _ _ ih => simpa using Content.elem hn ha hd hx hw (ih (hk hm))
  | comment h1 h2 _ ih => simpa using Content.comment h1 h2 (ih (hk hm))
  | cdata h1 h2 h3 _ ih => simpa using Content.cdata h1 h2 h3 (ih (hk hm))
  | pi h1 h2 h3 h4 h5 h6 h7 _ ih => simpa using Content.pi h1 h2 h3 h4 h5 h6 h7 (ih (hk hm))

theorem blank_spelled {w : Str} (h : ∀ c ∈ w, blank c = true) : Spelled textOk id w w := by
  induction w with
  | nil => exact .nil
  | cons c w ih =>
    refine .raw (as := id) ?_ (ih fun d hd => h d (List.mem_cons_of_mem _ hd))
    have := h c List.mem_cons_self
    simp only [blank, Bool.or_eq_true, beq_iff_eq] at this
    rcases this with (rfl | rfl) | rfl <;> decide

theorem blank_without {w : Str} (h : ∀ c ∈ w, blank c = true) : Without c!"]]>" w := by
  rintro ⟨p, q, rfl⟩
  have := h ']' (by simp)
  revert this; decide

/-- Blanks before something. -/
theorem content_blanks {w y : Str} {ns : List Node} (h : ∀ c ∈ w, blank c = true) (hn : NoText ns)
    (hy : Content y ns) : ∃ ms, Content (w ++ y) ms ∧ ms.filter inDoc = ns.filter inDoc := by
  cases w with
  | nil => exact ⟨ns, hy, rfl⟩
  | cons c w => exact ⟨_, .text (by simp) (blank_spelled h) (blank_without h) hn hy, rfl⟩

theorem misc_content {m : Str} {ns : List Node} (h : Misc m ns) {y : Str} {ms : List Node}
    (hy : Content y ms) (hm : NoText ms) :
    ∃ ks, Content (m ++ y) ks ∧ ks.filter inDoc = ns ++ ms.filter inDoc := by
  induction h with
  | blanks hw =>
    obtain ⟨ks, h1, h2⟩ := content_blanks hw hm hy
    exact ⟨ks, h1, h2⟩
  | @node w x n z ns hw hx hn _ ih =>
    obtain ⟨ks, h1, h2⟩ := ih
    have hid : inDoc n = true ∧ ∀ d, Node.text d ≠ n := by
      rcases hn with ⟨t, rfl⟩ | ⟨t, d, rfl⟩
      · exact ⟨rfl, by simp⟩
      · refine ⟨?_, by simp⟩
        generalize hg : [Node.pi t d] = l at hx
        cases hx with
        | pi _ h2 =>
          cases hg
          rw [inDoc, bne_iff_ne]
          rintro rfl
          exact h2 (by decide)
        | _ => cases hg
    have j1 := content_append hx h1 (.inr fun d hd => hid.2 d (List.mem_singleton.1 hd))
    have j2 : ([n] ++ ks).filter inDoc = n :: ks.filter inDoc := by simp [hid.1]
    have j3 : NoText ([n] ++ ks) := by
      rintro d ms' ⟨⟩
      exact hid.2 d rfl
    obtain ⟨ls, l1, l2⟩ := content_blanks hw j3 j1
    exact ⟨ls, by simpa using l1, by rw [l2, j2, h2]; rfl⟩

theorem inDoc_elem {n : Node} (h : n.isElem = true) : inDoc n = true ∧ ∀ d, Node.text d ≠ n := by
  cases n <;> simp_all [Node.isElem, inDoc]

theorem decl_skip {a r : Str} (h : ∀ c ∈ a, c ≠ '>' ∧ c ≠ '"' ∧ c ≠ '\'') :
    decl none (a ++ r) = decl none r := by
  induction a with
  | nil => rfl
  | cons c a ih =>
    obtain ⟨h1, h2, h3⟩ := h c (.head _)
    rw [List.cons_append, decl, if_neg h1, if_neg (by simp [h2, h3])]
    exact ih fun d hd => h d (.tail _ hd)

theorem decl_literal {ok : Char → Bool} {x r : Str} (h : Literal ok x)
    (hr : r.head?.any (fun c => blank c || c == '>') = true) :
    decl none (x ++ r) = decl none r := by
  obtain ⟨q, l, hq, hl, rfl⟩ := h
  have h1 : q ≠ '>' := by rcases hq with rfl | rfl <;> decide
  have : ∀ l : Str, (∀ c ∈ l, c ≠ q) → decl (some q) (l ++ q :: r) = decl none r := by
    intro l hl
    induction l with
    | nil => rw [List.nil_append, decl, if_pos rfl, if_pos hr]
    | cons c l ih =>
      rw [List.cons_append, decl, if_neg (hl c (.head _))]
      exact ih fun d hd => hl d (.tail _ hd)
  rw [List.cons_append, decl, if_neg h1, if_pos hq, List.append_assoc]
  exact this l fun c hc => (hl c hc).2

theorem blank_decl {w : Str} (h : ∀ c ∈ w, blank c = true) : ∀ c ∈ w, c ≠ '>' ∧ c ≠ '"' ∧ c ≠ '\'' := by
  intro c hc
  have := h c hc
  refine ⟨?_, ?_, ?_⟩ <;> · rintro rfl; revert this; decide

theorem name_decl {n : Str} (h : Name n) : ∀ c ∈ n, c ≠ '>' ∧ c ≠ '"' ∧ c ≠ '\'' := by
  intro c hc
  have := h.2 c hc
  refine ⟨?_, ?_, ?_⟩ <;> · rintro rfl; revert this; decide

theorem blank_before {w r : Str} (h : ∀ c ∈ w, blank c = true)
    (hr : w = [] → r.head?.any (fun c => blank c || c == '>') = true) :
    (w ++ r).head?.any (fun c => blank c || c == '>') = true := by
  cases w with
  | nil => exact hr rfl
  | cons c w => simp [h c (.head _)]

theorem space_ne {ws must : Char → Bool} {w : Str} (h : Space ws must w) : w ≠ [] := by
  obtain ⟨-, c, hc, -⟩ := h
  exact List.ne_nil_of_mem hc

theorem decl_of {must ok : Char → Bool} {t r : Str} (h : Doctype blank must ok t) :
    ∃ u, t = '<' :: '!' :: 'D' :: u ∧ decl none (u ++ r) = some r := by
  have e : ∀ b, c!"<!DOCTYPE" ++ b = '<' :: '!' :: 'D' :: (c!"OCTYPE" ++ b) := fun _ => rfl
  have end_ : ∀ {w' : Str}, (∀ c ∈ w', blank c = true) → decl none (w' ++ (c!">" ++ r)) = some r := by
    intro w' h
    rw [decl_skip (blank_decl h)]
    show decl none ('>' :: r) = _
    rw [decl, if_pos rfl]
  cases h with
  | plain hw hn hw' =>
    refine ⟨_, e _, ?_⟩
    simp only [List.append_assoc]
    rw [decl_skip (by decide), decl_skip (blank_decl hw.1), decl_skip (name_decl hn), end_ hw']
  | system hw hn h1 h2 hl hw' =>
    refine ⟨_, e _, ?_⟩
    simp only [List.append_assoc]
    rw [decl_skip (by decide), decl_skip (blank_decl hw.1), decl_skip (name_decl hn),
      decl_skip (blank_decl h1.1), decl_skip (by decide), decl_skip (blank_decl h2.1),
      decl_literal hl (blank_before hw' fun _ => rfl), end_ hw']
  | «public» hw hn h1 h2 hp h3 hl hw' =>
    refine ⟨_, e _, ?_⟩
    simp only [List.append_assoc]
    rw [decl_skip (by decide), decl_skip (blank_decl hw.1), decl_skip (name_decl hn),
      decl_skip (blank_decl h1.1), decl_skip (by decide), decl_skip (blank_decl h2.1),
      decl_literal hp (blank_before h3.1 fun h => absurd h (space_ne h3)), decl_skip (blank_decl h3.1),
      decl_literal hl (blank_before hw' fun _ => rfl), end_ hw']

/-- `y` is read as `js`. -/
def ReadAs (y : Str) (js : List Node) : Prop :=
  (∀ k, y.length < k → ∃ ls, content k y = some (ls, []) ∧ ls.filter inDoc = js)

/-- White space before markup. -/
theorem readAs_blanks {w y : Str} {js : List Node} (hw : ∀ c ∈ w, blank c = true)
    (hy : y = [] ∨ ∃ t, y = '<' :: t) (h : ReadAs y js) : ReadAs (w ++ y) js := by
  cases w with
  | nil => exact h
  | cons c w =>
    intro k hk
    obtain ⟨k, rfl⟩ : ∃ j, k = j + 1 := ⟨k - 1, by omega⟩
    simp only [List.length_append, List.length_cons] at hk
    obtain ⟨ls, h1, h2⟩ := h k (by omega)
    refine ⟨.text (c :: w) :: ls, ?_, by rw [← h2]; rfl⟩
    rw [content_text (by simp) (blank_spelled hw) hy, h1]
    rfl

theorem content_nil {z : Str} (h : Content z []) : z = [] := by
  generalize hg : ([] : List Node) = l at h
  cases h <;> first | rfl | cases hg

/-- Comments and instructions before markup. -/
theorem readAs_node {x y : Str} {n : Node} {js : List Node} (hx : Content x [n])
    (hn : (∃ t, n = .comment t) ∨ ∃ t d, n = .pi t d) (h : ReadAs y js) :
    ReadAs (x ++ y) (n :: js) ∧ ∃ t, x ++ y = '<' :: t := by
  generalize hg : [n] = l at hx
  cases hx with
  | nil => cases hg
  | text => cases hg; rcases hn with ⟨_, hn⟩ | ⟨_, _, hn⟩ <;> cases hn
  | empty => cases hg; rcases hn with ⟨_, hn⟩ | ⟨_, _, hn⟩ <;> cases hn
  | elem => cases hg; rcases hn with ⟨_, hn⟩ | ⟨_, _, hn⟩ <;> cases hn
  | cdata => cases hg; rcases hn with ⟨_, hn⟩ | ⟨_, _, hn⟩ <;> cases hn
  | @comment t z ns _ ht hz =>
    injection hg with hg hns
    subst hg; subst hns
    have hz := content_nil hz
    subst hz
    refine ⟨fun k hk => ?_, _, rfl⟩
    obtain ⟨k, rfl⟩ : ∃ j, k = j + 1 := ⟨k - 1, by omega⟩
    simp only [List.length_append, List.length_cons] at hk
    obtain ⟨ls, h1, h2⟩ := h k (by omega)
    have e : c!"<!--" ++ (t ++ (c!"-->" ++ [])) ++ y =
        '<' :: '!' :: '-' :: '-' :: (t ++ (c!"-->" ++ y)) := by simp
    refine ⟨.comment t :: ls, ?_, by rw [← h2]; rfl⟩
    rw [e, content, until_comment ht]
    simp only [Option.bind_some, h1]
    rfl
  | @pi t w d z ns ht hx hw hwd hd _ hwo hz =>
    injection hg with hg hns
    subst hg; subst hns
    have hz := content_nil hz
    subst hz
    refine ⟨fun k hk => ?_, _, rfl⟩
    obtain ⟨k, rfl⟩ : ∃ j, k = j + 1 := ⟨k - 1, by omega⟩
    simp only [List.length_append, List.length_cons] at hk
    obtain ⟨ls, h1, h2⟩ := h k (by omega)
    have e : c!"<?" ++ (t ++ (w ++ (d ++ (c!"?>" ++ [])))) ++ y =
        c!"<?" ++ (t ++ (w ++ (d ++ (c!"?>" ++ y)))) := by simp
    refine ⟨.pi t d :: ls, ?_, ?_⟩
    · rw [e, content_pi ht.2 hw hwd hd hwo, h1]
      rfl
    · have : inDoc (.pi t d) = true := by
        rw [inDoc, bne_iff_ne]
        rintro rfl
        exact hx (by decide)
      rw [List.filter_cons_of_pos this, h2]

theorem readAs_misc {m y : Str} {ns js : List Node} (hm : Misc m ns)
    (hy : y = [] ∨ ∃ t, y = '<' :: t) (h : ReadAs y js) : ReadAs (m ++ y) (ns ++ js) := by
  induction hm with
  | blanks hw => exact readAs_blanks hw hy h
  | @node w x n z ns hw hx hn _ ih =>
    obtain ⟨h1, t, h2⟩ := readAs_node hx hn ih
    have := readAs_blanks hw (.inr ⟨t, h2⟩) h1
    simpa using this

theorem misc_append {m k : Str} {ns ks : List Node} (hm : Misc m ns) (hk : Misc k ks) :
    Misc (m ++ k) (ns ++ ks) := by
  have hb : ∀ {v w : Str}, (∀ c ∈ v, blank c = true) → (∀ c ∈ w, blank c = true) →
      ∀ c ∈ v ++ w, blank c = true := fun h h' c hc =>
    (List.mem_append.1 hc).elim (h c) (h' c)
  induction hm with
  | blanks hw =>
    cases hk with
    | blanks hw' => exact .blanks (hb hw hw')
    | node hw' hx hn hz =>
      rw [← List.append_assoc]
      exact .node (hb hw hw') hx hn hz
  | node hw hx hn _ ih =>
    rw [List.append_assoc, List.append_assoc]
    exact .node hw hx hn ih

theorem readAs_doctype {must ok : Char → Bool} {t y : Str} {js : List Node}
    (ht : Doctype blank must ok t) (h : ReadAs y js) : ReadAs (t ++ y) js ∧ ∃ u, t ++ y = '<' :: u := by
  obtain ⟨u, rfl, hu⟩ := decl_of (r := y) ht
  refine ⟨fun k hk => ?_, _, rfl⟩
  obtain ⟨k, rfl⟩ : ∃ j, k = j + 1 := ⟨k - 1, by omega⟩
  simp only [List.length_append, List.length_cons] at hk
  obtain ⟨ls, h1, h2⟩ := h k (by omega)
  refine ⟨.pi c!"xml" [] :: ls, ?_, by rw [← h2]; rfl⟩
  show content (k + 1) ('<' :: '!' :: 'D' :: (u ++ y)) = _
  rw [content, hu]
  simp only [Option.bind_some, h1]
  rfl

/-- The reader computes the document. -/
theorem read_of {x : Str} {d : Doc} (h : Document x d) : read x = some d := by
  obtain ⟨v, m, t, k, e, m', ns, ks, n, ns', hx, hv, hm, ht, hk, he, hn, hm', rfl⟩ := h
  obtain ⟨k1, c1, f1⟩ := misc_content hm' .nil (by simp [NoText])
  rw [List.append_nil] at c1
  rw [List.filter_nil, List.append_nil] at f1
  have hn := inDoc_elem hn
  have c2 := content_append he c1 (.inr fun d hd => hn.2 d (List.mem_singleton.1 hd))
  have r2 : ReadAs (e ++ m') (n :: ns') := by
    intro j hj
    have := content_of c2 (r := []) (k := j) (.inl rfl) hj
    rw [List.append_nil] at this
    exact ⟨_, this, by simp [hn.1, f1]⟩
  have b2 := content_head c2 (by
    rintro d ms' ⟨⟩
    exact hn.2 d rfl)
  have r3 := readAs_misc hk b2 r2
  have r4 : ReadAs (m ++ (t ++ (k ++ (e ++ m')))) (ns ++ (ks ++ n :: ns')) := by
    rcases ht with rfl | ht
    · rw [List.nil_append]
      have := readAs_misc (misc_append hm hk) b2 r2
      simpa using this
    · obtain ⟨r4, u, hu⟩ := readAs_doctype ht r3
      exact readAs_misc hm (.inr ⟨u, hu⟩) r4
  have r5 : ReadAs (v ++ (m ++ (t ++ (k ++ (e ++ m'))))) (ns ++ (ks ++ n :: ns')) := by
    generalize m ++ (t ++ (k ++ (e ++ m'))) = y at r4
    have hpi : ∀ d, Without c!"?>" d → (∀ c u, d = c :: u → blank c = false) →
        v = c!"<?" ++ (c!"xml" ++ (c!" " ++ (d ++ c!"?>"))) →
        ReadAs (v ++ y) (ns ++ (ks ++ n :: ns')) := by
      rintro d h1 h2 rfl j hj
      simp only [List.length_append, List.length_cons] at hj
      obtain ⟨j, rfl⟩ : ∃ i, j = i + 1 := ⟨j - 1, by omega⟩
      obtain ⟨ls, l1, l2⟩ := r4 j (by omega)
      have := content_pi (k := j) (t := c!"xml") (w := c!" ") (d := d) (y := y)
        (by decide) (by decide) (by simp) h2 h1
      rw [l1] at this
      exact ⟨.pi c!"xml" d :: ls, by simpa using this, by rw [← l2]; rfl⟩
    have hwo : ∀ d : Str, '?' ∉ d → Without c!"?>" d := by
      rintro d hd ⟨p, q, rfl⟩
      exact hd (by simp)
    simp only [declarations, List.mem_cons, List.not_mem_nil, or_false] at hv
    rcases hv with rfl | hv | hv | hv
    · exact r4
    · exact hpi c!"version=\"1.0\"" (hwo _ (by decide)) (head_cons (by decide)) hv
    · exact hpi c!"version=\"1.0\" encoding=\"UTF-8\"" (hwo _ (by decide))
        (head_cons (by decide)) hv
    · exact hpi c!"version=\"1.0\" encoding=\"utf-8\"" (hwo _ (by decide))
        (head_cons (by decide)) hv
  obtain ⟨ls, h1, h2⟩ := r5 _ (Nat.lt_succ_self _)
  rw [read, hx, h1]
  simp only [h2]

end Verif.Xml
