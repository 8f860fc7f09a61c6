import Verif.Lemmas.XmlFile
import Verif.Spec.Expat

/-!
# A parser that is correct and precise

A scanner with finitely many kinds of states finds the position; it only serves to show that there are
parsers with the properties assumed in C70.
-/

namespace Verif.Xml
open Spec Spec.Xml

inductive St where
  | text | lt (s : Str) | skip (p seen : Str) | decl (q : Option Char)
  | name | attrs | aname | aeq | val0 | val (q : Char) | after | slash | close | err | dead
deriving DecidableEq

/-- Inside of a tag, after its name or an attribute. -/
def tagStep (c : Char) (other : St) : St :=
  if blank c then .attrs else if c = '>' then .text else if c = '/' then .slash else other

def step : St → Char → St
  | .text, c => if c = '<' then .lt [] else .text
  | .lt s, c =>
    let s := s ++ [c]
    if s = c!"!--" then .skip c!"-->" [] else if s = c!"![CDATA[" then .skip c!"]]>" []
    else if s = c!"!D" then .decl none else if s = c!"?" then .skip c!"?>" []
    else if s = c!"/" then .close else if s.head? = some '!' then .lt s
    else if nameStart c then .name else .dead
  | .skip p seen, c => if p.isSuffixOf (seen ++ [c]) then .text else .skip p (seen ++ [c])
  | .decl none, c => if c = '>' then .text else .decl (if c = '"' ∨ c = '\'' then some c else none)
  | .decl (some q), c => if c = q then .decl none else .decl (some q)
  | .name, c => if nameChar c then .name else tagStep c .dead
  | .attrs, c => if attrChar c then .aname else tagStep c .dead
  | .aname, c => if attrChar c then .aname else if blank c then .aeq else if c = '=' then .val0
      else if c.toNat < 128 then .err else .dead
  | .aeq, c => if blank c then .aeq else if c = '=' then .val0 else .err
  | .val0, c => if blank c then .val0 else if c = '"' ∨ c = '\'' then .val c else .err
  | .val q, c => if c = q then .after else .val q
  | .after, c => tagStep c .dead
  | .slash, c => if c = '>' then .text else .dead
  | .close, c => if c = '>' then .text else .close
  | .err, _ => .err
  | .dead, _ => .dead

def run (s : St) (x : Str) : St := x.foldl step s

/-- How many characters are read before the error. -/
def errAt : St → Nat → Str → Option Nat
  | _, _, [] => none
  | s, i, c :: x => if step s c = .err then some i else errAt (step s c) (i + 1) x

theorem run_append (s : St) (x y : Str) : run s (x ++ y) = run (run s x) y := List.foldl_append

theorem run_cons (s : St) (c : Char) (y : Str) : run s (c :: y) = run (step s c) y := rfl

theorem run_err (x : Str) : run .err x = .err := by
  induction x with
  | nil => rfl
  | cons c x ih => exact ih

theorem errAt_none : ∀ (x : Str) (s : St) (i : Nat), run s x ≠ .err → errAt s i x = none
  | [], _, _, _ => rfl
  | c :: x, s, i, h => by
    rw [errAt, if_neg, errAt_none x _ _ h]
    intro e
    rw [run_cons, e, run_err] at h
    exact h rfl

theorem errAt_some : ∀ (u : Str) (s : St) (i : Nat) (c : Char) (v : Str), run s u ≠ .err →
    step (run s u) c = .err → errAt s i (u ++ c :: v) = some (i + u.length)
  | [], s, i, c, v, _, h => by
    show errAt s i (c :: v) = _
    rw [errAt, if_pos (show step s c = .err from h)]
    rfl
  | d :: u, s, i, c, v, h, h' => by
    rw [List.cons_append, errAt, if_neg, errAt_some u _ _ c v h h']
    · simp only [List.length_cons]
      congr 1
      omega
    · intro e
      rw [run_cons, e, run_err] at h
      exact h rfl

/-- A state that does not change. -/
theorem run_stay {s : St} {x : Str} (h : ∀ c ∈ x, step s c = s) : run s x = s := by
  induction x with
  | nil => rfl
  | cons c x ih =>
    rw [run_cons, h c List.mem_cons_self]
    exact ih fun d hd => h d (List.mem_cons_of_mem _ hd)

theorem until_first {p r : Str} : ∀ (t : Str), until_ p (t ++ (p ++ r)) = some (t, r) →
    ∀ u v, t = u ++ v → v ≠ [] → p.isPrefixOf (v ++ (p ++ r)) = false
  | [], _, u, v, e, hv => absurd (List.append_eq_nil_iff.1 e.symm).2 hv
  | c :: t, h, u, v, e, hv => by
    rw [List.cons_append, until_] at h
    split at h
    · cases h
    · rename_i hc
      cases u with
      | nil =>
        rw [List.nil_append] at e
        rw [← e]
        exact Bool.eq_false_iff.2 hc
      | cons d u =>
        rw [List.cons_append] at e
        refine until_first t ?_ u v (List.cons.inj e).2 hv
        cases hr : until_ p (t ++ (p ++ r)) with
        | none => rw [hr] at h; cases h
        | some q =>
          rw [hr] at h
          obtain ⟨q1, q2⟩ := q
          simp at h
          rw [h.1, h.2]

theorem skip_aux {p full : Str} (hp : p ≠ []) (h : ∀ u v, full = u ++ (p ++ v) → v = []) :
    ∀ (x seen : Str), seen ++ x = full → x ≠ [] → p.isSuffixOf full = true →
      run (.skip p seen) x = .text
  | [], _, _, hx, _ => absurd rfl hx
  | [c], seen, e, _, hs => by
    rw [run_cons, step, if_pos (by rw [e]; exact hs)]
    rfl
  | c :: d :: x, seen, e, _, hs => by
    rw [run_cons, step, if_neg]
    · exact skip_aux hp h (d :: x) (seen ++ [c]) (by rw [← e]; simp) (by simp) hs
    · intro hc
      obtain ⟨u, hu⟩ := List.isSuffixOf_iff_suffix.1 hc
      have := h u (d :: x) (by rw [← e, ← List.append_assoc, hu]; simp)
      cases this

theorem skip_of {p t : Str} (hp : p ≠ [])
    (h : ∀ u v, t = u ++ v → v ≠ [] → p.isPrefixOf (v ++ (p ++ [])) = false) :
    run (.skip p []) (t ++ p) = .text := by
  refine skip_aux hp ?_ (t ++ p) [] rfl (by simp [hp]) (List.isSuffixOf_iff_suffix.2 ⟨t, rfl⟩)
  intro u v e
  rw [List.nil_append] at e
  by_cases hl : t.length ≤ u.length
  · have := congrArg List.length e
    simp only [List.length_append] at this
    exact List.length_eq_zero_iff.1 (show v.length = 0 by omega)
  · exfalso
    have e1 : t = u ++ t.drop u.length := by
      have := congrArg (List.take u.length) e
      rw [List.take_left, List.take_append_of_le_length (show u.length ≤ t.length by omega)] at this
      exact (List.take_append_drop u.length t).symm.trans (by rw [this])
    have e2 : t.drop u.length ++ p = p ++ v := by
      rw [e1, List.append_assoc] at e
      exact List.append_cancel_left e
    have := h u (t.drop u.length) e1 (by
      intro h0
      have := congrArg List.length h0
      simp only [List.length_drop, List.length_nil] at this
      omega)
    rw [List.append_nil, e2] at this
    rw [(List.isPrefixOf_iff_prefix).2 (List.prefix_append p v)] at this
    cases this

/-! ## Tags -/

/-- After the name of the tag or an attribute. -/
def Ready (s : St) : Prop := s = .name ∨ s = .after ∨ s = .attrs

theorem Ready.step {s : St} (h : Ready s) {c : Char} (hc : attrChar c = false) :
    step s c = tagStep c .dead := by
  have hn : nameChar c = false := by
    cases h : nameChar c with
    | false => rfl
    | true => rw [attrChar, h] at hc; cases hc
  rcases h with rfl | rfl | rfl
  · rw [Xml.step, hn]; rfl
  · rfl
  · rw [Xml.step, hc]; rfl

theorem Ready.blank {s : St} (h : Ready s) {c : Char} (hc : blank c = true) : Xml.step s c = .attrs := by
  rw [h.step (blank_attrChar hc), tagStep, if_pos hc]

theorem Ready.blanks {w : Str} {s : St} (h : Ready s) (hw : ∀ c ∈ w, Spec.Xml.blank c = true) (hne : w ≠ []) :
    run s w = .attrs := by
  cases w with
  | nil => exact absurd rfl hne
  | cons c w =>
    rw [run_cons, h.blank (hw c List.mem_cons_self)]
    exact run_stay fun d hd => Ready.blank (.inr (.inr rfl)) (hw d (List.mem_cons_of_mem _ hd))

theorem Ready.blanks' {w : Str} {s : St} (h : Ready s) (hw : ∀ c ∈ w, Spec.Xml.blank c = true) :
    Ready (run s w) := by
  by_cases hne : w = []
  · rw [hne]; exact h
  · rw [h.blanks hw hne]; exact .inr (.inr rfl)

theorem run_aname {m : Str} (h : AttrName m) : run .attrs m = .aname := by
  obtain ⟨h1, h2⟩ := attrName_chars h
  cases m with
  | nil => exact absurd rfl h1
  | cons c m =>
    rw [run_cons, step, if_pos (h2 c List.mem_cons_self)]
    exact run_stay fun d hd => by rw [step, if_pos (h2 d (List.mem_cons_of_mem _ hd))]

theorem run_aeq {e : Str} (h : ∀ c ∈ e, blank c = true) :
    run .aname e = if e = [] then .aname else .aeq := by
  cases e with
  | nil => rfl
  | cons c e =>
    rw [run_cons, step, if_neg, if_pos (h c List.mem_cons_self), if_neg (by simp)]
    · exact run_stay fun d hd => by rw [step, if_pos (h d (List.mem_cons_of_mem _ hd))]
    · rw [blank_attrChar (h c List.mem_cons_self)]; simp

theorem run_eq {e : Str} (h : ∀ c ∈ e, blank c = true) : run .aname (e ++ ['=']) = .val0 := by
  rw [run_append, run_aeq h]
  split <;> rfl

theorem run_val0 {e : Str} (h : ∀ c ∈ e, blank c = true) : run .val0 e = .val0 :=
  run_stay fun d hd => by rw [step, if_pos (h d hd)]

theorem run_value {q : Char} (hq : q = '"' ∨ q = '\'') {v d : Str} (h : Spelled (valueOk q) valueAs v d) :
    run .val0 (q :: (v ++ [q])) = .after := by
  rw [run_cons, step, if_neg (by rcases hq with rfl | rfl <;> decide), if_pos hq, run_append,
    run_stay (x := v) (fun c hc => by rw [step, if_neg (by simpa using spelled_chars hq h c hc)]), run_cons, step,
    if_pos rfl]
  rfl

theorem run_attributes {a : Str} {as : List (Str × Str)} (h : Attributes a as) :
    ∀ {s : St}, Ready s → Ready (run s a) := by
  induction h with
  | nil hw => exact fun hs => hs.blanks' hw
  | @cons w n e e' q v d x as hne hw hn he he' hq hv _ ih =>
    intro s hs
    have e1 : w ++ (n ++ (e ++ '=' :: (e' ++ q :: (v ++ q :: x)))) =
        w ++ (n ++ ((e ++ ['=']) ++ (e' ++ ((q :: (v ++ [q])) ++ x)))) := by simp
    rw [e1, run_append, hs.blanks hw hne, run_append, run_aname hn, run_append, run_eq he, run_append,
      run_val0 he', run_append, run_value hq hv]
    exact ih (.inr (.inl rfl))

theorem run_name {n : Str} (h : Name n) : run .text ('<' :: n) = .name := by
  obtain ⟨⟨c, t, rfl, hc⟩, hn⟩ := h
  have key : ∀ d, d = '!' ∨ d = '?' ∨ d = '/' → nameStart d = false := by
    rintro d (rfl | rfl | rfl) <;> decide
  have h1 : c ≠ '!' := by rintro rfl; rw [key _ (.inl rfl)] at hc; cases hc
  have h2 : c ≠ '?' := by rintro rfl; rw [key _ (.inr (.inl rfl))] at hc; cases hc
  have h3 : c ≠ '/' := by rintro rfl; rw [key _ (.inr (.inr rfl))] at hc; cases hc
  rw [run_cons, show step .text '<' = .lt [] from rfl, run_cons,
    show step (.lt []) c = .name by simp [step, h1, h2, h3, hc]]
  exact run_stay fun d hd => by rw [step, if_pos (hn d (List.mem_cons_of_mem _ hd))]

theorem run_tag {n a : Str} {as : List (Str × Str)} (hn : Name n) (ha : Attributes a as) :
    Ready (run .text ('<' :: (n ++ a))) := by
  rw [← List.cons_append, run_append, run_name hn]
  exact run_attributes ha (.inl rfl)

theorem Ready.close {s : St} (h : Ready s) : Xml.step s '>' = .text := by rw [h.step (by decide)]; rfl

theorem Ready.slash {s : St} (h : Ready s) : run s c!"/>" = .text := by
  rw [run_cons, h.step (by decide)]; rfl

/-! ## Content -/

theorem run_open {n a : Str} {as : List (Str × Str)} (hn : Name n) (ha : Attributes a as) (y : Str) :
    run .text ('<' :: (n ++ (a ++ '>' :: y))) = run .text y := by
  rw [show '<' :: (n ++ (a ++ '>' :: y)) = ('<' :: (n ++ a)) ++ '>' :: y by simp, run_append, run_cons,
    (run_tag hn ha).close]

theorem run_close {n w : Str} (hn : Name n) (hw : ∀ c ∈ w, blank c = true) (y : Str) :
    run .text ('<' :: '/' :: (n ++ (w ++ '>' :: y))) = run .text y := by
  rw [run_cons, show step .text '<' = .lt [] from rfl, run_cons, show step (.lt []) '/' = .close from rfl,
    run_append, run_stay (x := n) (fun c hc => ?_), run_append, run_stay (x := w) (fun c hc => ?_), run_cons]
  · rfl
  · rw [step, if_neg]
    rintro rfl
    have := hw _ hc
    revert this; decide
  · rw [step, if_neg]
    rintro rfl
    have := hn.2 _ hc
    revert this; decide

theorem run_content {x : Str} {ns : List Node} (h : Content x ns) : run .text x = .text := by
  induction h with
  | nil => rfl
  | @text x d y ns _ hs _ _ _ ih =>
    rw [run_append, run_stay (x := x) (fun c hc => ?_), ih]
    rw [step, if_neg (by simpa using text_chars hs c hc)]
  | @empty n a as y ns hn ha _ _ ih =>
    rw [show '<' :: (n ++ (a ++ '/' :: '>' :: y)) = ('<' :: (n ++ a)) ++ (c!"/>" ++ y) by simp, run_append,
      run_append, (run_tag hn ha).slash, ih]
  | @elem n a as x ms w y ns hn ha _ _ hw _ ih1 ih2 =>
    rw [run_open hn ha, run_append, ih1, run_close hn hw, ih2]
  | @comment t y ns _ ht _ ih =>
    rw [show c!"<!--" ++ (t ++ (c!"-->" ++ y)) = c!"<!--" ++ ((t ++ c!"-->") ++ y) by simp, run_append,
      show run .text c!"<!--" = .skip c!"-->" [] from by decide, run_append,
      skip_of (by simp) (until_first t (until_comment ht)), ih]
  | @cdata t y ns _ _ ht _ ih =>
    rw [show c!"<![CDATA[" ++ (t ++ (c!"]]>" ++ y)) = c!"<![CDATA[" ++ ((t ++ c!"]]>") ++ y) by simp,
      run_append, show run .text c!"<![CDATA[" = .skip c!"]]>" [] from by decide, run_append,
      skip_of (by simp) (until_first t (until_cdata ht)), ih]
  | @pi t w d y ns ht _ hw _ _ _ hd _ ih =>
    have h1 : Without c!"?>" (t ++ (w ++ d)) := by
      refine without_append (fun c hc => ?_) (without_append (fun c hc => ?_) hd)
      · rintro rfl
        have := ht.2 _ hc
        revert this; decide
      · rintro rfl
        have := hw _ hc
        revert this; decide
    rw [show c!"<?" ++ (t ++ (w ++ (d ++ (c!"?>" ++ y)))) = c!"<?" ++ (((t ++ (w ++ d)) ++ c!"?>") ++ y) by simp,
      run_append, show run .text c!"<?" = .skip c!"?>" [] from by decide, run_append,
      skip_of (by simp) (until_first _ (until_pi h1)), ih]

theorem run_misc {m : Str} {ns : List Node} (h : Misc m ns) : run .text m = .text := by
  have hb : ∀ {w : Str}, (∀ c ∈ w, blank c = true) → run .text w = .text := fun hw =>
    run_stay fun c hc => by
      rw [step, if_neg]
      rintro rfl
      have := hw _ hc
      revert this; decide
  induction h with
  | blanks hw => exact hb hw
  | node hw hx _ _ ih => rw [run_append, hb hw, run_append, run_content hx, ih]

theorem run_decl {a : Str} (h : ∀ c ∈ a, c ≠ '>' ∧ c ≠ '"' ∧ c ≠ '\'') : run (.decl none) a = .decl none :=
  run_stay fun c hc => by
    obtain ⟨h1, h2, h3⟩ := h c hc
    rw [step, if_neg h1, if_neg (by simp [h2, h3])]

theorem run_literal {ok : Char → Bool} {x : Str} (h : Literal ok x) : run (.decl none) x = .decl none := by
  obtain ⟨q, l, hq, hl, rfl⟩ := h
  rw [run_cons, step, if_neg (by rcases hq with rfl | rfl <;> decide), if_pos hq, run_append,
    run_stay (x := l) (fun c hc => by rw [step, if_neg (hl c hc).2]), run_cons, step, if_pos rfl]
  rfl

theorem run_doctype {must ok : Char → Bool} {t : Str} (h : Doctype blank must ok t) : run .text t = .text := by
  have e : ∀ b, run .text (c!"<!DOCTYPE" ++ b) = run (.decl none) b := fun b => by
    rw [run_append, show run .text c!"<!DOCTYPE" = .decl none from by decide]
  have end_ : ∀ {w' : Str}, (∀ c ∈ w', blank c = true) → run (.decl none) (w' ++ c!">") = .text := by
    intro w' h
    rw [run_append, run_decl (blank_decl h)]
    rfl
  cases h with
  | plain hw hn hw' =>
    rw [e, run_append, run_decl (blank_decl hw.1), run_append, run_decl (name_decl hn), end_ hw']
  | system hw hn h1 h2 hl hw' =>
    rw [e, run_append, run_decl (blank_decl hw.1), run_append, run_decl (name_decl hn), run_append,
      run_decl (blank_decl h1.1), run_append, run_decl (by decide), run_append, run_decl (blank_decl h2.1),
      run_append, run_literal hl, end_ hw']
  | «public» hw hn h1 h2 hp h3 hl hw' =>
    rw [e, run_append, run_decl (blank_decl hw.1), run_append, run_decl (name_decl hn), run_append,
      run_decl (blank_decl h1.1), run_append, run_decl (by decide), run_append, run_decl (blank_decl h2.1),
      run_append, run_literal hp, run_append, run_decl (blank_decl h3.1), run_append, run_literal hl, end_ hw']

theorem run_prolog {v m t k : Str} {ns ks : List Node} (hv : v ∈ declarations) (hm : Misc m ns)
    (ht : t = [] ∨ Doctype blank (fun _ => true) (fun c => legal c && c != '\r') t) (hk : Misc k ks) :
    run .text (v ++ (m ++ (t ++ k))) = .text := by
  have h1 : ∀ v ∈ declarations, run .text v = .text := by decide +kernel
  rw [run_append, h1 v hv, run_append, run_misc hm, run_append]
  rcases ht with rfl | ht
  · exact run_misc hk
  · rw [run_doctype ht, run_misc hk]

theorem run_document {x : Str} {d : Doc} (h : Document x d) : run .text (eol x) = .text := by
  obtain ⟨v, m, t, k, e, m', ns, ks, n, ns', e1, hv, hm, ht, hk, he, _, hm', _⟩ := h
  rw [e1, show v ++ (m ++ (t ++ (k ++ (e ++ m')))) = (v ++ (m ++ (t ++ k))) ++ (e ++ m') by simp, run_append,
    run_prolog hv hm ht hk, run_append, run_content he, run_misc hm']

theorem run_inside {p : Str} (h : Inside p) : run .text p = .text := by
  induction h with
  | root hv hm ht hk => exact run_prolog hv hm ht hk
  | down _ hn ha _ hx ih => rw [run_append, ih, run_open hn ha, run_content hx]

theorem run_inTag {u : Str} (h : InTag u) : Ready (run .text u) := by
  obtain ⟨p, n, a, as, hp, hn, ha, rfl⟩ := h
  rw [run_append, run_inside hp]
  exact run_tag hn ha

theorem run_named {u : Str} (h : Named u) : run .text u = .aname := by
  obtain ⟨t, w, m, ht, hne, hw, hm, rfl⟩ := h
  rw [run_append, run_append, (run_inTag ht).blanks hw hne, run_aname hm]

end Verif.Xml

namespace Verif
open Spec Spec.Xml Xml

/-- A parser that does what XML says, and complains at the right place.  (All other texts are rejected
with one and the same error, which is not the one of an invalid token.) -/
def expatEnv : Env where
  parse x := match errAt .text 0 (eol x) with
    | some i => .error (.expat 4 1 i)
    | none => match Xml.read x with
      | some d => .ok d
      | none => .error (.expat 5 1 0)
  isWord c := isAsciiAlnum c

theorem expatEnv_correct : Correct expatEnv := by
  intro x d h
  show (match errAt .text 0 (eol x) with
    | some i => Except.error (ParseErr.expat 4 1 i)
    | none => match Xml.read x with
      | some d => .ok d
      | none => .error (ParseErr.expat 5 1 0)) = _
  rw [errAt_none _ _ _ (by rw [run_document h]; decide), read_of h]

theorem eol_append {u v : Str} (h : OneLine u) : eol (u ++ v) = u ++ eol v := by
  induction u with
  | nil => rfl
  | cons c u ih =>
    have h1 := (h c List.mem_cons_self).2
    rw [List.cons_append, eol, ih fun d hd => h d (List.mem_cons_of_mem _ hd)]
    · rfl
    · rintro t rfl; exact absurd rfl h1
    · rintro rfl; exact absurd rfl h1

theorem expatEnv_error {u v : Str} {c : Char} (h : OneLine u) (hc : gap c = false)
    (h1 : run .text u ≠ .err) (h2 : step (run .text u) c = .err) :
    expatEnv.parse (u ++ c :: v) = .error (.expat 4 1 u.length) := by
  have hr : c ≠ '\r' := by rintro rfl; revert hc; decide
  have e : eol (u ++ c :: v) = u ++ c :: eol v := by
    rw [eol_append h, eol]
    · rintro t rfl; exact absurd rfl hr
    · rintro rfl; exact absurd rfl hr
  show (match errAt .text 0 (eol (u ++ c :: v)) with
    | some i => Except.error (ParseErr.expat 4 1 i)
    | none => match Xml.read (u ++ c :: v) with
      | some d => .ok d
      | none => .error (ParseErr.expat 5 1 0)) = _
  rw [e, errAt_some u _ _ _ _ h1 h2, Nat.zero_add]

theorem expatEnv_precise : Precise expatEnv := by
  have hgap : ∀ {c}, gap c = false → blank c = false := by
    intro c h
    rw [gap, Bool.or_eq_false_iff] at h
    exact h.1
  constructor
  · intro u e e' c v hu he he' hl hc h1 h2
    have h3 : run .text (u ++ (e ++ '=' :: e')) = .val0 := by
      rw [show u ++ (e ++ '=' :: e') = u ++ ((e ++ ['=']) ++ e') by simp, run_append, run_named hu,
        run_append, run_eq he, run_val0 he']
    refine expatEnv_error hl hc (by rw [h3]; decide) ?_
    rw [h3, step, hgap hc, if_neg (by simp), if_neg (by simp [h1, h2])]
  · intro u e c v hu he hl hc h1 h2
    have h3 : run .text (u ++ e) = if e = [] then .aname else .aeq := by
      rw [run_append, run_named hu, run_aeq he]
    refine expatEnv_error hl hc (by rw [h3]; split <;> decide) ?_
    rw [h3]
    split
    · rename_i h0
      obtain ⟨h4, h5, h6⟩ := h2 h0
      rw [step, if_neg (by simp [attrChar, h5, h6]), hgap hc, if_neg (by simp), if_neg h1, if_pos h4]
    · rw [step, hgap hc, if_neg (by simp), if_neg h1]

end Verif
