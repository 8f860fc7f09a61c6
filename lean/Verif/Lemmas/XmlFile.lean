import Verif.Lemmas.Xml
import Verif.Spec.Context

/-! # Files of XML after preprocessing -/

namespace Verif.Xml
open Spec Spec.Xml

theorem dropMml_without {s : Str} (h : Without c!"mml:" s) : dropMml s = s := by
  induction s with
  | nil => rfl
  | cons c s ih =>
    have h' : Without c!"mml:" s := fun ⟨p, q, e⟩ => h ⟨c :: p, q, by rw [e]; rfl⟩
    unfold dropMml
    split
    · rename_i t e
      exact absurd ⟨[], t, by rw [e]; rfl⟩ h
    · rename_i e
      cases e
      rw [ih h']
    · rename_i e
      cases e

theorem eol_id {s : Str} (h : '\r' ∉ s) : eol s = s := by
  induction s with
  | nil => rfl
  | cons c s ih =>
    have hc : c ≠ '\r' := by rintro rfl; exact h (by simp)
    rw [eol, ih fun h' => h (List.mem_cons_of_mem _ h')]
    · rintro s rfl; exact absurd rfl hc
    · exact hc

theorem drop_append (x y : Str) : dropBreaks (x ++ y) = dropBreaks x ++ dropBreaks y :=
  List.filter_append ..

theorem drop_cons {c : Char} (h : c ≠ '\r' ∧ c ≠ '\n') (x : Str) :
    dropBreaks (c :: x) = c :: dropBreaks x := by
  simp [dropBreaks, h.1, h.2]

theorem drop_id {x : Str} (h : ∀ c ∈ x, c ≠ '\r' ∧ c ≠ '\n') : dropBreaks x = x := by
  refine List.filter_eq_self.2 fun c hc => ?_
  have := h c hc
  simp [this.1, this.2]

theorem drop_not_cr (x : Str) : '\r' ∉ dropBreaks x := by
  simp [dropBreaks]

theorem drop_gap {w : Str} (h : ∀ c ∈ w, gap c = true) : ∀ c ∈ dropBreaks w, blank c = true := by
  intro c hc
  simp only [dropBreaks, List.mem_filter] at hc
  have := h c hc.1
  simp only [gap, Bool.or_eq_true, beq_iff_eq] at this
  rcases this with this | rfl
  · exact this
  · simp at hc

theorem nameChar_break {c : Char} (h : attrChar c = true) : c ≠ '\r' ∧ c ≠ '\n' :=
  ⟨by rintro rfl; revert h; decide, by rintro rfl; revert h; decide⟩

theorem drop_name {n : Str} (h : Name n) : dropBreaks n = n :=
  drop_id fun c hc => nameChar_break (by simp [attrChar, h.2 c hc])

theorem drop_attrName {n : Str} (h : AttrName n) : dropBreaks n = n :=
  drop_id fun c hc => nameChar_break ((attrName_chars h).2 c hc)

theorem digit_break {c : Char} (h : (digit c).isSome = true) : c ≠ '\r' ∧ c ≠ '\n' :=
  ⟨by rintro rfl; revert h; decide, by rintro rfl; revert h; decide⟩

theorem drop_refers {r : Str} {c : Char} (h : Refers r c) : dropBreaks r = r := by
  cases h with
  | entity h =>
    have : ∀ p ∈ entities, dropBreaks p.1 = p.1 := by decide
    exact this _ h
  | dec h =>
    rw [drop_cons (by decide), drop_id fun c hc => digit_break ((numeral_of h).2.1 c hc)]
  | hex h =>
    rw [drop_cons (by decide), drop_cons (by decide),
      drop_id fun c hc => digit_break ((numeral_of h).2.1 c hc)]

theorem drop_spelled {ok : Char → Bool} {as : Char → Char} {x d : Str} (h : Spelled ok as x d)
    (hok : ∀ c, ok c = true → c ≠ '\r' ∧ c ≠ '\n') : dropBreaks x = x := by
  induction h with
  | nil => rfl
  | raw hc _ ih => rw [drop_cons (hok _ hc), ih]
  | ref hr _ ih => rw [drop_cons (by decide), drop_append, drop_refers hr, drop_cons (by decide), ih]

theorem spelled_mono {ok ok' : Char → Bool} {as : Char → Char} {x d : Str} (h : Spelled ok as x d)
    (hok : ∀ c, ok c = true → ok' c = true) : Spelled ok' as x d := by
  induction h with
  | nil => exact .nil
  | raw hc _ ih => exact .raw (hok _ hc) ih
  | ref hr _ ih => exact .ref hr ih

theorem tagged_attributes {as : List (Str × Str)} {a : Str} (h : Tagged as a) :
    Attributes (dropBreaks a) as := by
  induction h with
  | nil hw => exact .nil (drop_gap hw)
  | @cons w n e e' q v d as x hw hc hn he he' hq hv _ ih =>
    have hq' : q ≠ '\r' ∧ q ≠ '\n' := by rcases hq with rfl | rfl <;> decide
    rw [drop_append, drop_append, drop_attrName hn, drop_append, drop_cons (by decide), drop_append,
      drop_cons hq', drop_append, drop_cons hq', drop_spelled hv (by
        intro c hc
        simp only [valueOk, textOk, Bool.and_eq_true, bne_iff_ne] at hc
        exact ⟨hc.1.1.2, hc.2⟩)]
    refine .cons ?_ (drop_gap hw) hn (drop_gap he) (drop_gap he') hq
      (spelled_mono hv fun c hc => by
        simp only [Bool.and_eq_true] at hc
        exact hc.1) ih
    obtain ⟨c, h1, h2⟩ := hc
    refine List.ne_nil_of_mem (a := c) ?_
    simp only [dropBreaks, List.mem_filter]
    refine ⟨h1, ?_⟩
    rcases h2 with rfl | rfl <;> decide

/-- What a file says after preprocessing: the nodes with replacements inside, and if `i`, with other
nodes between them. -/
structure Said (i : Bool) (ns : List Node) (y : Str) (es ns' : List Node) : Prop where
  content : Content (dropBreaks y) ns'
  rel : DocRel (Cong SameKids) ns es
  same : i = false → ns' = es
  kids : i = true → kids ns' = es
  noText : NoText ns → NoText es

theorem docRel_cons {R : Node → Node → Prop} {n n' : Node} {ns ns' : List Node} (h : R n n')
    (hs : DocRel R ns ns') : DocRel R (n :: ns) (n' :: ns') := by
  refine ⟨by simp [hs.1], fun p hp => ?_⟩
  rw [List.zip_cons_cons, List.mem_cons] at hp
  rcases hp with rfl | hp
  · exact h
  · exact hs.2 p hp

/-- Blanks in front of markup. -/
theorem content_gap {w y : Str} {n : Node} {ns : List Node} (h : ∀ c ∈ w, blank c = true)
    (hn : n.isElem = true ∨ ∃ t, n = .comment t) (hy : Content y (n :: ns)) :
    ∃ ms, Content (w ++ y) (ms ++ n :: ns) ∧ Spec.kids ms = [] ∧ (w = [] → ms = []) := by
  cases w with
  | nil => exact ⟨[], hy, rfl, fun _ => rfl⟩
  | cons c w =>
    refine ⟨[.text (c :: w)], .text (by simp) (blank_spelled h) (blank_without h) ?_ hy, rfl, by simp⟩
    rintro d ms ⟨⟩
    rcases hn with hn | ⟨t, hn⟩ <;> cases hn

theorem kids_append (a b : List Node) : kids (a ++ b) = kids a ++ kids b := by
  simp [kids]

theorem kids_elem {n : Node} {ns : List Node} (h : n.isElem = true) : kids (n :: ns) = n :: kids ns := by
  simp [kids, h]

theorem said_elem {i : Bool} {w y z : Str} {n n' : Node} {ns es ns' : List Node}
    (hw : ∀ c ∈ w, gap c = true) (hwi : i = false → w = []) (hn : Cong SameKids n n')
    (he : n'.isElem = true) (hy : Said i ns y es ns')
    (hz : Content (dropBreaks z) (n' :: ns')) :
    ∃ es ns', Said i (n :: ns) (w ++ z) es ns' := by
  obtain ⟨ms, h1, h2, h3⟩ := content_gap (drop_gap hw) (.inl he) hz
  refine ⟨n' :: es, ms ++ n' :: ns', by rw [drop_append]; exact h1, docRel_cons hn hy.rel, ?_, ?_, ?_⟩
  · intro hi
    rw [h3 (by rw [hwi hi]; rfl), hy.same hi]; rfl
  · intro hi
    rw [kids_append, h2, kids_elem he, hy.kids hi]; rfl
  · rintro - d l ⟨⟩
    cases he

theorem printed_said {i : Bool} {ns : List Node} {y : Str} (h : Printed i ns y) :
    ∃ es ns', Said i ns y es ns' := by
  induction h with
  | @nil i w hw hi =>
    have hw' := drop_gap hw
    by_cases e : dropBreaks w = []
    · exact ⟨[], [], by rw [e]; exact .nil, ⟨rfl, by simp⟩, fun _ => rfl, fun _ => rfl, id⟩
    · refine ⟨[], [.text (dropBreaks w)], ?_, ⟨rfl, by simp⟩, ?_, fun _ => rfl, id⟩
      · have := Content.text e (blank_spelled hw') (blank_without hw') (by simp [NoText]) .nil
        rwa [List.append_nil] at this
      · intro h
        rw [hi h] at e
        exact absurd rfl e
  | @text x d y ns hx hs hwo hn _ ih =>
    obtain ⟨es, ns', h⟩ := ih
    have e := h.same rfl
    subst e
    have hd := drop_spelled hs (by
        intro c hc
        simp only [textOk, Bool.and_eq_true, bne_iff_ne] at hc
        exact ⟨hc.1.2, hc.2⟩)
    refine ⟨.text d :: ns', .text d :: ns', ?_, docRel_cons .refl h.rel, fun _ => rfl, by simp, ?_⟩
    · rw [drop_append, hd]
      exact .text hx (spelled_mono hs fun c hc => by
        simp only [Bool.and_eq_true] at hc
        exact hc.1) hwo (h.noText hn) h.content
    · intro hh
      exact absurd rfl (hh d ns)
  | @cdata t y ns ht hl hwo _ ih =>
    obtain ⟨es, ns', h⟩ := ih
    have e := h.same rfl
    subst e
    refine ⟨.cdata t :: ns', .cdata t :: ns', ?_, docRel_cons .refl h.rel, fun _ => rfl, by simp, ?_⟩
    · rw [drop_append, drop_append, drop_append, drop_id (x := t) fun c hc => (hl c hc).2]
      exact .cdata ht (fun c hc => ⟨(hl c hc).1, (hl c hc).2.1⟩) hwo h.content
    · rintro - d l ⟨⟩
  | @comment w t y ns hw hl hwo _ ih =>
    obtain ⟨es, ns', h⟩ := ih
    have hc : Content (dropBreaks (c!"<!--" ++ (t ++ (c!"-->" ++ y)))) (.comment (dropBreaks t) :: ns') := by
      rw [drop_append, drop_append, drop_append]
      refine .comment (fun c hc => ⟨?_, ?_⟩) hwo h.content
      · exact hl c (List.mem_filter.1 hc).1
      · rintro rfl
        exact drop_not_cr t hc
    obtain ⟨ms, h1, h2, h3⟩ := content_gap (drop_gap hw) (.inr ⟨_, rfl⟩) hc
    refine ⟨es, _, by rw [drop_append]; exact h1, h.rel, by simp, fun _ => ?_, h.noText⟩
    rw [kids_append, h2, ← h.kids rfl]
    rfl
  | @empty i w n as a ns y hw hi hn ha hd _ ih =>
    obtain ⟨es, ns', h⟩ := ih
    refine said_elem hw hi .refl rfl h ?_
    rw [drop_cons (by decide), drop_append, drop_append, drop_name hn, drop_cons (by decide),
      drop_cons (by decide)]
    exact .empty hn (tagged_attributes ha) hd h.content
  | @elem i j w n as a ms x w' ns y hw hi hn ha hd _ hj hw' _ ihx ihy =>
    obtain ⟨es, ns', h⟩ := ihy
    obtain ⟨fs, ms', hx⟩ := ihx
    refine said_elem (n' := .elem n as ms') hw hi ?_ rfl h ?_
    · refine .trans (.elem hx.rel.1 hx.rel.2) ?_
      cases j with
      | false => rw [hx.same rfl]; exact .refl
      | true =>
        have hk := hx.kids rfl
        have hkk : kids fs = fs := by
          rw [← hk]
          simp [kids]
        refine .base ⟨by rw [hkk, hk], ?_⟩
        rw [hkk]
        rintro rfl
        have := hx.rel.1
        exact (hj rfl).1 (List.length_eq_zero_iff.1 this)
    · rw [drop_cons (by decide), drop_append, drop_append, drop_name hn, drop_cons (by decide),
        drop_append, drop_cons (by decide), drop_cons (by decide), drop_append, drop_append,
        drop_name hn, drop_cons (by decide)]
      exact .elem hn (tagged_attributes ha) hd hx.content (drop_gap hw') h.content

theorem cong_isElem {n n' : Node} (h : Cong SameKids n n') : n.isElem = n'.isElem := by
  induction h with
  | base h => obtain ⟨_, _⟩ := h; rfl
  | refl => rfl
  | symm _ ih => exact ih.symm
  | trans _ _ i1 i2 => exact i1.trans i2
  | elem => rfl

theorem space_drop {w : Str} (h : Space gap (fun c => c == ' ' || c == '\t') w) :
    Space blank (fun _ => true) (dropBreaks w) := by
  obtain ⟨h1, c, h2, h3⟩ := h
  refine ⟨drop_gap h1, c, ?_, rfl⟩
  rw [dropBreaks, List.mem_filter]
  refine ⟨h2, ?_⟩
  simp only [Bool.or_eq_true, beq_iff_eq] at h3
  rcases h3 with rfl | rfl <;> decide

theorem literal_drop {ok ok' : Char → Bool} (hok : ∀ c, ok c = true → ok' c = true ∧ c ≠ '\r' ∧ c ≠ '\n')
    {x : Str} (h : Literal ok x) : Literal ok' x ∧ dropBreaks x = x := by
  obtain ⟨q, l, hq, hl, rfl⟩ := h
  refine ⟨⟨q, l, hq, fun c hc => ⟨(hok c (hl c hc).1).1, (hl c hc).2⟩, rfl⟩, drop_id ?_⟩
  intro c hc
  have hq' : q ≠ '\r' ∧ q ≠ '\n' := by rcases hq with rfl | rfl <;> decide
  rcases List.mem_cons.1 hc with rfl | hc
  · exact hq'
  · rcases List.mem_append.1 hc with hc | hc
    · exact (hok c (hl c hc).1).2
    · rw [List.mem_singleton.1 hc]; exact hq'

theorem doctype_drop {t : Str} (h : PrintedDoctype t) :
    Doctype blank (fun _ => true) (fun c => legal c && c != '\r') (dropBreaks t) := by
  have hok : ∀ c, (legal c && c != '\r' && c != '\n') = true →
      (legal c && c != '\r') = true ∧ c ≠ '\r' ∧ c ≠ '\n' := by
    intro c hc
    simp only [Bool.and_eq_true, bne_iff_ne] at hc ⊢
    exact ⟨hc.1, hc.1.2, hc.2⟩
  have hok' : ∀ c, (pubid c && (legal c && c != '\r' && c != '\n')) = true →
      (pubid c && (legal c && c != '\r')) = true ∧ c ≠ '\r' ∧ c ≠ '\n' := by
    intro c hc
    simp only [Bool.and_eq_true, bne_iff_ne] at hc ⊢
    exact ⟨⟨hc.1, hc.2.1⟩, hc.2.1.2, hc.2.2⟩
  have k : ∀ b, dropBreaks (c!"<!DOCTYPE" ++ b) = c!"<!DOCTYPE" ++ dropBreaks b := fun b => by
    rw [drop_append]; rfl
  have ks : ∀ b, dropBreaks (c!"SYSTEM" ++ b) = c!"SYSTEM" ++ dropBreaks b := fun b => by
    rw [drop_append]; rfl
  have kp : ∀ b, dropBreaks (c!"PUBLIC" ++ b) = c!"PUBLIC" ++ dropBreaks b := fun b => by
    rw [drop_append]; rfl
  cases h with
  | plain hw hn hw' =>
    rw [k, drop_append, drop_append, drop_name hn, drop_append]
    exact .plain (space_drop hw) hn (drop_gap hw')
  | system hw hn h1 h2 hl hw' =>
    obtain ⟨l1, l2⟩ := literal_drop hok hl
    rw [k, drop_append, drop_append, drop_name hn, drop_append, ks, drop_append, drop_append, l2, drop_append]
    exact .system (space_drop hw) hn (space_drop h1) (space_drop h2) l1 (drop_gap hw')
  | «public» hw hn h1 h2 hp h3 hl hw' =>
    obtain ⟨l1, l2⟩ := literal_drop hok hl
    obtain ⟨p1, p2⟩ := literal_drop hok' hp
    rw [k, drop_append, drop_append, drop_name hn, drop_append, kp, drop_append, drop_append, p2, drop_append,
      drop_append, l2, drop_append]
    exact .public (space_drop hw) hn (space_drop h1) (space_drop h2) p1 (space_drop h3) l1 (drop_gap hw')

/-- A file is a document after preprocessing. -/
theorem file_document {n : Node} {y : Str} (h : File n y) (hm : Without c!"mml:" (dropBreaks y)) :
    ∃ n', Document (prep y) [n'] ∧ Cong SameKids n n' := by
  obtain ⟨v, w, t, k, e, w', hv, hw, ht, hk, he, hn, hw', rfl⟩ := h
  obtain ⟨es, ns', hs⟩ := printed_said he
  have e' := hs.same rfl
  subst e'
  have hl := hs.rel.1
  match ns', hl, hs with
  | [n'], _, hs =>
    have hc : Cong SameKids n n' := hs.rel.2 (n, n') (by simp)
    refine ⟨n', ⟨v, dropBreaks w, dropBreaks t, dropBreaks k, dropBreaks e, dropBreaks w', [], [], n', [],
      ?_, hv, .blanks (drop_gap hw), ?_, .blanks (drop_gap hk),
      hs.content, ?_, .blanks (drop_gap hw'), rfl⟩, hc⟩
    · rw [prep, dropMml_without hm, eol_id (drop_not_cr _), drop_append, drop_append, drop_append,
        drop_append, drop_append]
      have : ∀ v ∈ declarations, dropBreaks v = v := by decide
      rw [this v hv]
    · rcases ht with rfl | ht
      · exact .inl rfl
      · exact .inr (doctype_drop ht)
    · rw [← cong_isElem hc]; exact hn

/-! ## Writing -/

theorem numeral_10 : Numeral 10 c!"10" '\n'.toNat ∧ Numeral 10 c!"13" '\r'.toNat ∧
    Numeral 10 c!"58" ':'.toNat ∧ Numeral 10 c!"9" '\t'.toNat := by
  refine ⟨?_, ?_, ?_, ?_⟩
  · exact .more (ds := c!"1") (n := 1) (k := 0) (.one (by decide) (by decide)) (by decide) (by decide)
  · exact .more (ds := c!"1") (n := 1) (k := 3) (.one (by decide) (by decide)) (by decide) (by decide)
  · exact .more (ds := c!"5") (n := 5) (k := 8) (.one (by decide) (by decide)) (by decide) (by decide)
  · exact .one (by decide) (by decide)

/-- The characters that are written as they are. -/
def plain (c : Char) : Bool :=
  legal c && !(c!"&<>\":\n\r\t").contains c

theorem spelled_escape {ok : Char → Bool} {as : Char → Char} (hok : ∀ c, plain c = true → ok c = true ∧ as c = c)
    {d : Str} (h : ∀ c ∈ d, legal c = true) : Spelled ok as (d.flatMap escape) d := by
  induction d with
  | nil => exact .nil
  | cons c d ih =>
    have ih := ih fun x hx => h x (List.mem_cons_of_mem _ hx)
    have hc := h c List.mem_cons_self
    rw [List.flatMap_cons]
    have key : ∀ {r : Str}, Refers r c → Spelled ok as (('&' :: (r ++ c!";")) ++ d.flatMap escape) (c :: d) := by
      intro r hr
      have := Spelled.ref hr ih
      simpa using this
    unfold escape
    split
    · rename_i e; subst e; exact key (r := c!"amp") (.entity (by decide))
    split
    · rename_i e; subst e; exact key (r := c!"lt") (.entity (by decide))
    split
    · rename_i e; subst e; exact key (r := c!"gt") (.entity (by decide))
    split
    · rename_i e; subst e; exact key (r := c!"quot") (.entity (by decide))
    split
    · rename_i e; subst e; exact key (r := c!"#58") (.dec numeral_10.2.2.1 hc)
    split
    · rename_i e; subst e; exact key (r := c!"#10") (.dec numeral_10.1 hc)
    split
    · rename_i e; subst e; exact key (r := c!"#13") (.dec numeral_10.2.1 hc)
    split
    · rename_i e; subst e; exact key (r := c!"#9") (.dec numeral_10.2.2.2 hc)
    · have hp : plain c = true := by
        simp [plain, *]
      obtain ⟨h1, h2⟩ := hok c hp
      have := Spelled.raw (as := as) h1 ih
      rwa [h2] at this

theorem plain_text {c : Char} (h : plain c = true) : textOk c = true ∧ id c = c := by
  simp [plain] at h
  simp [textOk, h]

theorem plain_value {c : Char} (h : plain c = true) : valueOk '"' c = true ∧ valueAs c = c := by
  simp [plain] at h
  simp [valueOk, textOk, valueAs, blank, h]
  exact fun e => e.symm

/-- Characters that do not occur in what is written. -/
def absent (c : Char) : Prop := c = ':' ∨ c = '\n' ∨ c = '\r'

theorem escape_chars {d : Str} : ∀ c ∈ d.flatMap escape, ¬ absent c ∧ c ≠ '>' := by
  intro c hc
  obtain ⟨e, -, h⟩ := List.mem_flatMap.1 hc
  clear hc
  unfold absent
  unfold escape at h
  split at h
  · revert c; decide
  split at h
  · revert c; decide
  split at h
  · revert c; decide
  split at h
  · revert c; decide
  split at h
  · revert c; decide
  split at h
  · revert c; decide
  split at h
  · revert c; decide
  split at h
  · revert c; decide
  · rw [List.mem_singleton.1 h]
    refine ⟨?_, by assumption⟩
    rintro (e | e | e) <;> contradiction

theorem name_chars {n : Str} (h : Name n) : ∀ c ∈ n, ¬ absent c := by
  rintro c hc (rfl | rfl | rfl)
  all_goals have := h.2 _ hc; revert this; decide

theorem writeAttrs_attributes {as : List (Str × Str)}
    (h : ∀ p ∈ as, Name p.1 ∧ ∀ c ∈ p.2, legal c = true) :
    Attributes (writeAttrs as) as ∧ ∀ c ∈ writeAttrs as, ¬ absent c := by
  induction as with
  | nil => exact ⟨.nil (by simp [writeAttrs]), by simp [writeAttrs]⟩
  | cons p as ih =>
    obtain ⟨i1, i2⟩ := ih fun q hq => h q (List.mem_cons_of_mem _ hq)
    obtain ⟨h1, h2⟩ := h p List.mem_cons_self
    have e : writeAttrs (p :: as) =
        c!" " ++ (p.1 ++ ([] ++ '=' :: ([] ++ '"' :: (p.2.flatMap escape ++ '"' :: writeAttrs as)))) := by
      simp [writeAttrs]
    rw [e]
    refine ⟨.cons (by simp) (by decide) (.inl h1) (by simp) (by simp) (.inl rfl)
      (spelled_escape (fun c hc => plain_value hc) h2) i1, ?_⟩
    intro c hc
    simp only [List.mem_append, List.mem_cons, List.not_mem_nil, or_false, false_or] at hc
    rcases hc with rfl | hc | rfl | rfl | hc | rfl | hc
    · unfold absent; decide
    · exact name_chars h1 c hc
    · unfold absent; decide
    · unfold absent; decide
    · exact (escape_chars c hc).1
    · unfold absent; decide
    · exact i2 c hc

theorem write_content {ns : List Node} (h : Writable ns) :
    Content (writeAll ns) ns ∧ ∀ c ∈ writeAll ns, ¬ absent c := by
  induction h with
  | nil => exact ⟨.nil, by simp [writeAll]⟩
  | @text d ns hd hl hn _ ih =>
    have hs := spelled_escape (as := id) (fun c hc => plain_text hc) hl
    refine ⟨?_, ?_⟩
    · rw [writeAll, write]
      refine .text ?_ hs ?_ hn ih.1
      · intro e
        rw [e] at hs
        cases hs
        exact hd rfl
      · rintro ⟨p, q, e⟩
        have : '>' ∈ d.flatMap escape := by rw [e]; simp
        exact (escape_chars _ this).2 rfl
    · intro c hc
      rw [writeAll, write, List.mem_append] at hc
      rcases hc with hc | hc
      · exact (escape_chars _ hc).1
      · exact ih.2 c hc
  | @elem n as ms ns hn ha hd _ _ ih1 ih2 =>
    obtain ⟨a1, a2⟩ := writeAttrs_attributes ha
    have e : writeAll (.elem n as ms :: ns) = '<' :: (n ++ (writeAttrs as ++ '>' ::
        (writeAll ms ++ '<' :: '/' :: (n ++ ([] ++ '>' :: writeAll ns))))) := by
      simp [writeAll, write]
    rw [e]
    refine ⟨.elem hn a1 hd ih1.1 (by simp) ih2.1, ?_⟩
    intro c hc
    simp only [List.mem_append, List.mem_cons, List.not_mem_nil, false_or] at hc
    rcases hc with rfl | hc | hc | rfl | hc | rfl | rfl | hc | rfl | hc
    · unfold absent; decide
    · exact name_chars hn c hc
    · exact a2 c hc
    · unfold absent; decide
    · exact ih1.2 c hc
    · unfold absent; decide
    · unfold absent; decide
    · exact name_chars hn c hc
    · unfold absent; decide
    · exact ih2.2 c hc

theorem prep_id {x : Str} (h : ∀ c ∈ x, ¬ absent c) : prep x = x := by
  have : dropBreaks x = x := drop_id fun c hc =>
    ⟨fun e => h c hc (.inr (.inr e)), fun e => h c hc (.inr (.inl e))⟩
  rw [prep, this]
  refine dropMml_without ?_
  rintro ⟨p, q, e⟩
  exact h ':' (by rw [e]; simp) (.inl rfl)

theorem write_document {n : Node} (h : Writable [n]) (hn : n.isElem = true) :
    prep (write n) = write n ∧ Document (write n) [n] := by
  obtain ⟨h1, h2⟩ := write_content h
  have e : writeAll [n] = write n := by simp [writeAll]
  rw [e] at h1 h2
  refine ⟨prep_id h2, [], [], [], [], write n, [], [], [], n, [], ?_, by decide, .blanks (by simp),
    .inl rfl, .blanks (by simp), h1, hn, .blanks (by simp), rfl⟩
  rw [eol_id fun hc => h2 _ hc (.inr (.inr rfl))]
  simp

end Verif.Xml
