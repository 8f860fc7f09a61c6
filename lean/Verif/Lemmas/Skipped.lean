import Verif.Spec.Skipped

/-!
# What the scanner passes over

In a document there are no references to replace.
-/

namespace Verif
open Spec Spec.Xml

/-- Read in `p`, the text is left alone, and what follows is read in `p'`. -/
def Pass (p : Place) (x : Str) (p' : Place) : Prop :=
  ∀ u s, instead u p (x ++ s) = x ++ instead u p' s

namespace Pass

theorem nil {p : Place} : Pass p [] p := fun _ _ => rfl

theorem append {p p' p'' : Place} {x y : Str} (h : Pass p x p') (h' : Pass p' y p'') :
    Pass p (x ++ y) p'' := by
  intro u s
  rw [List.append_assoc, h, h', List.append_assoc]

theorem cons {p p' p'' : Place} {c : Char} {x : Str} (h : Pass p [c] p') (h' : Pass p' x p'') :
    Pass p (c :: x) p'' := h.append h'

theorem chars {p : Place} {x : Str} (h : ∀ c ∈ x, Pass p [c] p) : Pass p x p := by
  induction x with
  | nil => exact nil
  | cons c x ih =>
    exact cons (h c List.mem_cons_self) (ih fun d hd => h d (List.mem_cons_of_mem _ hd))

theorem raw {c : Char} (h : c ≠ '<') (h' : c ≠ '&') : Pass .data [c] .data := by
  intro u s
  simp [instead, h, h']

theorem tag {c : Char} (h : c ≠ '>') (h1 : c ≠ '"') (h2 : c ≠ '\'') : Pass .tag [c] .tag := by
  intro u s
  simp [instead, h, h1, h2]

theorem decl {c : Char} (h : c ≠ '>') (h1 : c ≠ '"') (h2 : c ≠ '\'') : Pass .decl [c] .decl := by
  intro u s
  simp [instead, h, h1, h2]

theorem value {q c : Char} (h : c ≠ q) (h' : c ≠ '&') : Pass (.value q) [c] (.value q) := by
  intro u s
  simp [instead, h, h']

theorem lit {q c : Char} (h : c ≠ q) : Pass (.lit q) [c] (.lit q) := by
  intro u s
  simp [instead, h]

theorem comment {t : Str} (h : Without c!"--" (t ++ c!"-")) : Pass .comment (t ++ c!"-->") .data := by
  induction t with
  | nil => intro u s; simp [instead]
  | cons c t ih =>
    have ih := ih (fun ⟨p, q, e⟩ => h ⟨c :: p, q, by rw [List.cons_append, e]; rfl⟩)
    intro u s
    have ih := ih u s
    rw [List.append_assoc] at ih
    rw [List.append_assoc, List.cons_append, instead, ih]
    · simp
    rintro s' rfl e
    cases t with
    | nil => exact h ⟨[], [], rfl⟩
    | cons d t =>
      have e : d :: (t ++ (c!"-->" ++ s)) = '-' :: '>' :: s' := e
      obtain ⟨rfl, -⟩ := List.cons.inj e
      exact h ⟨[], t ++ c!"-", rfl⟩

theorem cdata {t : Str} (h : Without c!"]]>" t) : Pass .cdata (t ++ c!"]]>") .data := by
  induction t with
  | nil => intro u s; simp [instead]
  | cons c t ih =>
    have ih := ih (fun ⟨p, q, e⟩ => h ⟨c :: p, q, by rw [e]; rfl⟩)
    intro u s
    have ih := ih u s
    rw [List.append_assoc] at ih
    rw [List.append_assoc, List.cons_append, instead, ih]
    · simp
    rintro s' rfl e
    rcases t with _ | ⟨d, _ | ⟨d', t⟩⟩
    · cases e
    · cases e
    · cases e
      exact h ⟨[], t, rfl⟩

theorem pi {t : Str} (h : Without c!"?>" t) : Pass .pi (t ++ c!"?>") .data := by
  induction t with
  | nil => intro u s; simp [instead]
  | cons c t ih =>
    have ih := ih (fun ⟨p, q, e⟩ => h ⟨c :: p, q, by rw [e]; rfl⟩)
    intro u s
    have ih := ih u s
    rw [List.append_assoc] at ih
    rw [List.append_assoc, List.cons_append, instead, ih]
    · simp
    rintro s' rfl e
    rcases t with _ | ⟨d, t⟩
    · cases e
    · cases e
      exact h ⟨[], t, rfl⟩

end Pass

/-- What is collected after `&`. -/
theorem instead_collect (u : Str) (back : Place) (r r' s : Str)
    (h : ∀ c ∈ r, nameChar c = true ∨ c = '#') :
    instead u (.ref back r') (r ++ ';' :: s) =
      (if foreign (r'.reverse ++ r) then u else '&' :: (r'.reverse ++ r ++ c!";")) ++ instead u back s := by
  induction r generalizing r' with
  | nil => simp [instead]
  | cons c r ih =>
    have hc := h c List.mem_cons_self
    have h1 : c ≠ ';' := by
      rintro rfl
      rcases hc with hc | hc <;> exact absurd hc (by decide)
    have h2 : (nameChar c || c == '#') = true := by
      rcases hc with hc | hc <;> simp [hc]
    rw [List.cons_append, instead, if_neg h1, if_pos h2, ih _ fun d hd => h d (List.mem_cons_of_mem _ hd)]
    simp

/-- A place where references are replaced. -/
def Spec.Xml.Place.Open : Place → Prop
  | .data => True
  | .value q => q = '"' ∨ q = '\''
  | _ => False

theorem instead_ref (u : Str) (p : Place) (hp : p.Open) (r s : Str)
    (h : ∀ c ∈ r, nameChar c = true ∨ c = '#') :
    instead u p ('&' :: (r ++ ';' :: s)) =
      (if foreign r then u else '&' :: (r ++ c!";")) ++ instead u p s := by
  have h1 : instead u p ('&' :: (r ++ ';' :: s)) = instead u (.ref p []) (r ++ ';' :: s) := by
    cases p with
    | data => simp [instead]
    | value q =>
      have hq : '&' ≠ q := by rintro rfl; rcases hp with hp | hp <;> exact absurd hp (by decide)
      simp [instead, hq]
    | _ => exact hp.elim
  rw [h1, instead_collect u p r [] s h]
  rfl

theorem digit_nameChar {c : Char} {k : Nat} (h : digit c = some k) : nameChar c = true := by
  unfold digit at h
  unfold nameChar nameStart
  split at h
  · rename_i hc; simp [hc]
  · split at h
    · rename_i hc
      have : c ≤ 'z' := Char.le_trans hc.2 (by decide)
      simp [hc.1, this]
    · split at h
      · rename_i hc
        have : c ≤ 'Z' := Char.le_trans hc.2 (by decide)
        simp [hc.1, this]
      · cases h

theorem numeral_nameChar {b : Nat} {ds : Str} {n : Nat} (h : Numeral b ds n) :
    ∀ c ∈ ds, nameChar c = true := by
  induction h with
  | one h _ => intro c hc; rw [List.mem_singleton.1 hc]; exact digit_nameChar h
  | more _ h _ ih =>
    intro c hc
    rcases List.mem_append.1 hc with hc | hc
    · exact ih c hc
    · rw [List.mem_singleton.1 hc]; exact digit_nameChar h

theorem refers_chars {r : Str} {c : Char} (h : Refers r c) :
    (∀ d ∈ r, nameChar d = true ∨ d = '#') ∧ foreign r = false := by
  cases h with
  | entity h =>
    have : ∀ p ∈ entities, (∀ d ∈ p.1, nameChar d = true ∨ d = '#') ∧ foreign p.1 = false := by decide
    exact this _ h
  | dec h _ =>
    refine ⟨fun d hd => ?_, by simp [foreign, show nameStart '#' = false by decide]⟩
    rcases List.mem_cons.1 hd with rfl | hd
    · exact .inr rfl
    · exact .inl (numeral_nameChar h d hd)
  | hex h _ =>
    refine ⟨fun d hd => ?_, by simp [foreign, show nameStart '#' = false by decide]⟩
    rcases List.mem_cons.1 hd with rfl | hd
    · exact .inr rfl
    rcases List.mem_cons.1 hd with rfl | hd
    · exact .inl (by decide)
    · exact .inl (numeral_nameChar h d hd)

theorem pass_spelled {p : Place} (hp : p.Open) {ok : Char → Bool} {as : Char → Char} {x d : Str}
    (h : Spelled ok as x d) (hok : ∀ c, ok c = true → Pass p [c] p) : Pass p x p := by
  induction h with
  | nil => exact .nil
  | raw h _ ih => exact .cons (hok _ h) ih
  | @ref r c x d h _ ih =>
    intro u s
    have := instead_ref u p hp r (x ++ s) (refers_chars h).1
    rw [(refers_chars h).2] at this
    simp only [List.cons_append, List.append_assoc]
    rw [this, ih]
    simp

theorem pass_blanks {p : Place} {w : Str} (h : ∀ c ∈ w, blank c = true)
    (hp : ∀ c, c ≠ '<' → c ≠ '&' → c ≠ '>' → c ≠ '"' → c ≠ '\'' → Pass p [c] p) : Pass p w p :=
  .chars fun c hc => by
    have := h c hc
    apply hp <;> rintro rfl <;> exact absurd this (by decide)

theorem pass_name {p : Place} {n : Str} (h : ∀ c ∈ n, nameChar c = true ∨ c = ':')
    (hp : ∀ c, c ≠ '<' → c ≠ '&' → c ≠ '>' → c ≠ '"' → c ≠ '\'' → Pass p [c] p) : Pass p n p :=
  .chars fun c hc => by
    have := h c hc
    apply hp <;> rintro rfl <;> exact absurd this (by decide)

theorem attrName_chars {n : Str} (h : AttrName n) : ∀ c ∈ n, nameChar c = true ∨ c = ':' := by
  rcases h with h | rfl
  · exact fun c hc => .inl (h.2 c hc)
  · decide

theorem pass_tag (c : Char) (_ : c ≠ '<') (_ : c ≠ '&') (h : c ≠ '>') (h1 : c ≠ '"') (h2 : c ≠ '\'') :
    Pass .tag [c] .tag := .tag h h1 h2

theorem pass_decl (c : Char) (_ : c ≠ '<') (_ : c ≠ '&') (h : c ≠ '>') (h1 : c ≠ '"') (h2 : c ≠ '\'') :
    Pass .decl [c] .decl := .decl h h1 h2

theorem pass_data (c : Char) (h : c ≠ '<') (h' : c ≠ '&') (_ : c ≠ '>') (_ : c ≠ '"') (_ : c ≠ '\'') :
    Pass .data [c] .data := .raw h h'

theorem pass_attributes {a : Str} {as : List (Str × Str)} (h : Attributes a as) : Pass .tag a .tag := by
  induction h with
  | nil h => exact pass_blanks h pass_tag
  | @cons w n e e' q v d x as _ hw hn he he' hq hv _ ih =>
    refine (pass_blanks hw pass_tag).append ((pass_name (attrName_chars hn) pass_tag).append
      ((pass_blanks he pass_tag).append (.cons (.tag (by decide) (by decide) (by decide))
        ((pass_blanks he' pass_tag).append (.cons (p' := .value q) ?_ (.append (p' := .value q) ?_ (.cons (p' := .tag) ?_ ih)))))))
    · intro u s
      rcases hq with rfl | rfl <;> simp [instead]
    · refine pass_spelled (p := .value q) hq hv fun c hc => ?_
      unfold valueOk textOk at hc
      simp at hc
      exact .value hc.2 hc.1.1.2
    · intro u s
      simp [instead]

theorem pass_open {n a : Str} {as : List (Str × Str)} (hn : Name n) (ha : Attributes a as) :
    Pass .data ('<' :: (n ++ a)) .tag := by
  intro u s
  have h := ((pass_name (fun c hc => .inl (hn.2 c hc)) pass_tag).append (pass_attributes ha)) u s
  obtain ⟨⟨c, t, rfl, hc⟩, -⟩ := hn
  have h1 : c ≠ '!' := by rintro rfl; exact absurd hc (by decide)
  have h2 : c ≠ '?' := by rintro rfl; exact absurd hc (by decide)
  simp only [List.cons_append] at h ⊢
  rw [← h]
  simp [instead, h1, h2]

theorem pass_close {n w : Str} (hn : Name n) (hw : ∀ c ∈ w, blank c = true) :
    Pass .data ('<' :: '/' :: (n ++ (w ++ c!">"))) .data := by
  intro u s
  have h := ((pass_name (fun c hc => .inl (hn.2 c hc)) pass_tag).append ((pass_blanks hw pass_tag).append
    (show Pass .tag c!">" .data from fun u s => by simp [instead]))) u s
  simp only [List.cons_append, List.append_assoc] at h ⊢
  rw [← h]
  simp [instead]

theorem pass_content {x : Str} {ns : List Node} (h : Content x ns) : Pass .data x .data := by
  induction h with
  | nil => exact .nil
  | text _ hs _ _ _ ih =>
    refine .append (pass_spelled (p := .data) trivial hs fun c hc => ?_) ih
    unfold textOk at hc
    simp at hc
    exact .raw hc.1.1.2 hc.1.2
  | @empty n a as y ns hn ha _ _ ih =>
    have h1 : Pass .tag c!"/>" .data := fun u s => by simp [instead]
    have := ((pass_open hn ha).append h1).append ih
    simpa using this
  | @elem n a as x ms w y ns hn ha _ _ hw _ ih ih' =>
    have h1 : Pass .tag c!">" .data := fun u s => by simp [instead]
    have := (((pass_open hn ha).append h1).append (ih.append (pass_close hn hw))).append ih'
    simpa using this
  | @comment t y ns _ hw _ ih =>
    have h1 : Pass .data c!"<!--" .comment := fun u s => by simp [instead]
    have := h1.append ((Pass.comment hw).append ih)
    simpa using this
  | @cdata t y ns _ _ hw _ ih =>
    have h1 : Pass .data c!"<![CDATA[" .cdata := fun u s => by simp [instead]
    have := h1.append ((Pass.cdata hw).append ih)
    simpa using this
  | @pi t w d y ns hn _ hb _ _ _ hw _ ih =>
    have h1 : Pass .data c!"<?" .pi := fun u s => by simp [instead]
    have h2 : ∀ c, c ≠ '?' → Pass .pi [c] .pi := fun c hc u s => by simp [instead, hc]
    have h3 : Pass .pi t .pi := .chars fun c hc => h2 c (by
      rintro rfl; exact absurd (hn.2 _ hc) (by decide))
    have h4 : Pass .pi w .pi := .chars fun c hc => h2 c (by
      rintro rfl; exact absurd (hb _ hc) (by decide))
    have := h1.append (h3.append (h4.append ((Pass.pi hw).append ih)))
    simpa using this

theorem pass_misc {x : Str} {ns : List Node} (h : Misc x ns) : Pass .data x .data := by
  induction h with
  | blanks h => exact pass_blanks h pass_data
  | node hw hx _ _ ih => exact (pass_blanks hw pass_data).append ((pass_content hx).append ih)

theorem pass_literal {ok : Char → Bool} {l : Str} (h : Literal ok l) : Pass .decl l .decl := by
  obtain ⟨q, l, hq, hl, rfl⟩ := h
  refine .cons (p' := .lit q) (fun u s => ?_) (.append (.chars fun c hc => .lit (hl c hc).2) fun u s => ?_)
  · rcases hq with rfl | rfl <;> simp [instead]
  · simp [instead]

theorem pass_doctype {ok must : Char → Bool} {t : Str} (h : Doctype blank must ok t) :
    Pass .data t .data := by
  have h1 : Pass .data c!"<!DOCTYPE" .decl := fun u s => by simp [instead]
  have h2 : Pass .decl c!">" .data := fun u s => by simp [instead]
  have name : ∀ {n : Str}, Name n → Pass .decl n .decl := fun hn =>
    pass_name (fun c hc => .inl (hn.2 c hc)) pass_decl
  have ws : ∀ {w : Str}, Space blank must w → Pass .decl w .decl := fun hw => pass_blanks hw.1 pass_decl
  cases h with
  | plain hw hn hw' =>
    exact h1.append ((ws hw).append ((name hn).append ((pass_blanks hw' pass_decl).append h2)))
  | system hw hn hw1 hw2 hl hw' =>
    have h3 : Pass .decl c!"SYSTEM" .decl := pass_name (by decide) pass_decl
    exact h1.append ((ws hw).append ((name hn).append ((ws hw1).append (h3.append ((ws hw2).append
      ((pass_literal hl).append ((pass_blanks hw' pass_decl).append h2)))))))
  | «public» hw hn hw1 hw2 hp hw3 hl hw' =>
    have h3 : Pass .decl c!"PUBLIC" .decl := pass_name (by decide) pass_decl
    exact h1.append ((ws hw).append ((name hn).append ((ws hw1).append (h3.append ((ws hw2).append
      ((pass_literal hp).append ((ws hw3).append
        ((pass_literal hl).append ((pass_blanks hw' pass_decl).append h2)))))))))

theorem pass_declaration {v : Str} (h : v ∈ declarations) : Pass .data v .data := by
  unfold declarations at h
  simp only [List.mem_cons, List.not_mem_nil, or_false] at h
  rcases h with rfl | rfl | rfl | rfl
  · exact .nil
  all_goals intro u s; simp [instead]

theorem eol_noCR (x : Str) : ∀ c ∈ eol x, c ≠ '\r' := by
  fun_induction eol x <;> simp_all

theorem eol_id {x : Str} (h : ∀ c ∈ x, c ≠ '\r') : eol x = x := by
  induction x with
  | nil => rfl
  | cons c x ih =>
    have hc := h c List.mem_cons_self
    rw [eol, ih fun d hd => h d (List.mem_cons_of_mem _ hd)]
    · intro s h; exact fun h' => hc h
    · exact fun h' => hc h'

theorem eol_eol (x : Str) : eol (eol x) = eol x := eol_id (eol_noCR x)

/-- In a document there is nothing to replace. -/
theorem Spec.Xml.Document.replaced {x : Str} {d : Doc} (h : Document x d) (u : Str) :
    replaced u x = eol x := by
  obtain ⟨v, m, t, k, e, m', ns, ks, n, ns', h1, hv, hm, ht, hk, he, -, hm', -⟩ := h
  have ht : Pass .data t .data := by
    rcases ht with rfl | ht
    · exact .nil
    · exact pass_doctype ht
  have := (pass_declaration hv).append ((pass_misc hm).append (ht.append ((pass_misc hk).append
    ((pass_content he).append (pass_misc hm')))))
  have := this u []
  unfold Spec.Xml.replaced
  rw [h1]
  simpa [instead] using this

end Verif
