import Verif.Lemmas.SignTables
import Verif.Lemmas.Renders

/-! # Tokens in formulas -/

namespace Verif
open Spec

/-! ## Texts in no table -/

/-- Ordinary characters. -/
theorem Spec.Latex.chars {k : Str} (h : ∀ c ∈ k, ordinary c = true) (q : Room) :
    ∃ q', Latex (.run q q') (tokens k) ∧ (q = fresh → q' = fresh) := by
  induction k generalizing q with
  | nil => exact ⟨q, .nil, id⟩
  | cons c k ih =>
    have hc := h c List.mem_cons_self
    have h1 : c ≠ '\\' := by rintro rfl; revert hc; decide
    have h2 : c ≠ '\'' := by rintro rfl; revert hc; decide
    have ih := ih fun d hd => h d (List.mem_cons_of_mem _ hd)
    by_cases hs : isSpace c = true
    · have e : tokens (c :: k) = tokens k := by
        simp [tokens, tokensFrom, lexStep, lexStart, h1, hs]
      rw [e]; exact ih q
    · have e : tokens (c :: k) = [.char c] ++ tokens k := by
        simp [tokens, tokensFrom, lexStep, lexStart, h1, h2, hs]
      obtain ⟨q', h3, h4⟩ := ih fresh
      rw [e]
      exact ⟨q', .atom (.char hc) h3, fun _ => h4 rfl⟩

theorem Spec.Latex.chars_fresh {k : Str} (h : ∀ c ∈ k, ordinary c = true) :
    Latex (.run fresh fresh) (tokens k) := by
  obtain ⟨q', h1, h2⟩ := Latex.chars h fresh
  exact h2 rfl ▸ h1

theorem Spec.Latex.chars_nucleic {k : Str} (h : ∀ c ∈ k, ordinary c = true) (hne : k ≠ [])
    (hs : ∀ c t, k = c :: t → isSpace c = false) (q : Room) :
    Latex (.run q fresh) (tokens k) := by
  obtain ⟨c, k, rfl⟩ := List.exists_cons_of_ne_nil hne
  have hc := h c List.mem_cons_self
  have h1 : c ≠ '\\' := by rintro rfl; revert hc; decide
  have h2 : c ≠ '\'' := by rintro rfl; revert hc; decide
  have e : tokens (c :: k) = [.char c] ++ tokens k := by
    simp [tokens, tokensFrom, lexStep, lexStart, h1, h2, hs c k rfl]
  rw [e]
  exact .atom (.char hc) (.chars_fresh fun d hd => h d (List.mem_cons_of_mem _ hd))

theorem tokens_primes {k : Str} (hne : k ≠ []) (h : ∀ c ∈ k, c = '\'') :
    tokens k = [.char '\''] := by
  have key : ∀ k : Str, (∀ c ∈ k, c = '\'') → tokensFrom .prime k = [] := by
    intro k
    induction k with
    | nil => intro _; rfl
    | cons c k ih =>
      intro h
      rw [tokensFrom, h c List.mem_cons_self]
      exact ih fun d hd => h d (List.mem_cons_of_mem _ hd)
  obtain ⟨c, k, rfl⟩ := List.exists_cons_of_ne_nil hne
  rw [tokens, tokensFrom, h c List.mem_cons_self]
  have := key k fun d hd => h d (List.mem_cons_of_mem _ hd)
  show [Tok.char '\''] ++ tokensFrom .prime k = _
  rw [this]; rfl

/-! ## Symbols -/

theorem listed_iff {ts : List (Dict Str)} {k : Str} :
    listed ts k = true ↔ ∃ t ∈ ts, ∃ v, (k, v) ∈ t ∧ v ≠ [] := by
  simp only [listed, List.any_eq_true, Bool.and_eq_true, beq_iff_eq, bne_iff_ne, Prod.exists]
  constructor
  · rintro ⟨t, ht, k', v, hm, rfl, hv⟩; exact ⟨t, ht, v, hm, hv⟩
  · rintro ⟨t, ht, v, hm, hv⟩; exact ⟨t, ht, k, v, hm, rfl, hv⟩

/-- What the checks of the tables give. -/
def tablesOk (S : Signs) : List (Dict Str) → List (Dict Str) → Prop
  | _, [] => True
  | earlier, t :: ts => tableOk S earlier t = true ∧ tablesOk S (earlier ++ [t]) ts

theorem Spec.Tabulated.entryOk {S : Signs} {ts : List (Dict Str)} {k v : Str}
    (h : Tabulated ts k v) : ∀ {earlier}, tablesOk S earlier ts → listed earlier k = false →
      entryOk S k v = true := by
  induction h with
  | @here t ts k v hm hv =>
    intro earlier h1 h2
    have := h1.1
    unfold tableOk at this
    have := forall_of_all this _ _ hm
    simp only [h2, Bool.or_false, Bool.or_eq_true, beq_iff_eq] at this
    exact this.resolve_left hv
  | @skip t ts k v hn _ ih =>
    intro earlier h1 h2
    refine ih h1.2 ?_
    rw [Bool.eq_false_iff] at h2 ⊢
    rw [Ne, listed_iff] at h2 ⊢
    rintro ⟨t', ht', w, hw, hne⟩
    rcases List.mem_append.1 ht' with ht' | ht'
    · exact h2 ⟨t', ht', w, hw, hne⟩
    · cases List.mem_singleton.1 ht'
      exact hne (hn w hw)

theorem Spec.Glyph.latex {k s : Str} (h : Glyph k s) :
    s = k ∨ (k ≠ [] ∧ k.head? ≠ some '\'' ∧ ∀ q, Latex (.run q fresh) (tokens s)) := by
  cases h with
  | alnum _ => exact .inl rfl
  | plain _ _ _ => exact .inl rfl
  | accent _ h1 h2 =>
    refine .inr ?_
    have hv := nucleic_vowels
    unfold nucleicVowels at hv
    have := forall_of_all hv _ _ h1
    rw [Bool.and_eq_true] at this
    have h0 : k ≠ [] ∧ k.head? ≠ some '\'' := by simpa using this.1
    exact ⟨h0.1, h0.2, nucleic_sound (forall_of_all this.2 _ _ h2)⟩
  | font _ _ h1 =>
    refine .inr ?_
    have hv := nucleic_fonts
    unfold nucleicFonts at hv
    have := forall_of_all hv _ _ h1
    rw [Bool.and_eq_true] at this
    have h0 : k ≠ [] ∧ k.head? ≠ some '\'' := by simpa using this.1
    exact ⟨h0.1, h0.2, nucleic_sound this.2⟩

/-- A symbol does in the formula what its text promises. -/
theorem Spec.Sign.latex {S : Signs} {ts : List (Dict Str)} (h1 : tablesOk S [] ts)
    (h2 : allListed S ts = true) (h3 : disjoint S = true) {k s : Str} {e : Effect}
    (hk : Sign S k e) (hsp : ∀ c t, k = c :: t → isSpace c = false)
    (hs : Tabulated ts k s ∨ (Untabulated ts k ∧
      (s = k ∨ (k ≠ [] ∧ k.head? ≠ some '\'' ∧ ∀ q, Latex (.run q fresh) (tokens s)))))
    {q q' : Room} (hm : e.Moves q q') :
    Latex (.run q q') (tokens s) := by
  have nl : listed [] k = false := rfl
  have key : ∀ c ∈ S.sups ++ S.subs ++ S.blanks ++ S.escapes, k = [c] → Tabulated ts k s := by
    rintro c hc rfl
    refine hs.resolve_right ?_
    rintro ⟨hu, -⟩
    unfold allListed at h2
    have := List.all_eq_true.1 h2 c hc
    obtain ⟨t, ht, v, hv, hne⟩ := listed_iff.1 this
    exact hne (hu t ht v hv)
  simp only [disjoint, Bool.and_eq_true, List.all_eq_true, Bool.not_eq_true', ← Bool.not_eq_true,
    has_iff, List.mem_append, not_or] at h3
  obtain ⟨⟨⟨d1, d2⟩, d3⟩, d4⟩ := h3
  cases e with
  | nucleus =>
    obtain ⟨hne, ho, hr⟩ := hk
    cases hm
    have hent : entryOk S k s = true → ∀ q, Latex (.run q fresh) (tokens s) := by
      intro he
      match k, hne with
      | [c], _ =>
        obtain ⟨r1, r2, r3, r4⟩ := hr c rfl
        simp only [entryOk, has_iff, r1, r2, r3, r4, if_false, Bool.or_eq_true] at he
        split at he
        · cases he
        · have : ordinary c = true ∨ c ∈ S.escapes := by
            rcases ho with ho | ⟨d, hd, e⟩
            · exact .inl (ho c (by simp))
            · cases e; exact .inr hd
          rw [if_pos this] at he
          exact nucleic_sound he
      | c :: d :: k, _ =>
        simp only [entryOk] at he
        split at he
        · cases he
        · have : (c :: d :: k).all ordinary = true := by
            rcases ho with ho | ⟨d, hd, e⟩
            · exact List.all_eq_true.2 ho
            · cases e
          rw [if_pos this] at he
          exact nucleic_sound he
    rcases hs with hs | ⟨hu, hg⟩
    · exact hent (hs.entryOk h1 nl) q
    · rcases hg with rfl | ⟨-, -, hg⟩
      · rcases ho with ho | ⟨c, hc, e⟩
        · exact .chars_nucleic ho hne hsp q
        · exact hent ((key c (by simp [hc]) e).entryOk h1 nl) q
      · exact hg q
  | sup =>
    have hq : q = ⟨true, q.sub⟩ := by rw [← hm.1]
    rw [hm.2, hq]
    rcases hk with ⟨c, hc, rfl⟩ | ⟨hne, hp⟩
    · have he := (key c (by simp [hc]) rfl).entryOk h1 nl
      have := d1 c hc
      simp only [entryOk, has_iff, this, hc, if_true, if_false] at he
      exact supic_sound he _
    · have hh : k.head? = some '\'' := by
        obtain ⟨c, k, rfl⟩ := List.exists_cons_of_ne_nil hne
        rw [hp c (by simp)]; rfl
      have : ¬ Tabulated ts k s := by
        intro ht
        have he := ht.entryOk h1 nl
        obtain ⟨c, k, rfl⟩ := List.exists_cons_of_ne_nil hne
        cases hp c (by simp)
        cases k with
        | nil =>
          simp only [entryOk, has_iff, d4, if_false, if_true] at he
          cases he
        | cons d k => simp [entryOk] at he
      obtain ⟨-, hg⟩ := hs.resolve_left this
      rcases hg with rfl | ⟨-, hg, -⟩
      · rw [tokens_primes hne hp]
        exact .prime .nil
      · exact absurd hh hg
  | sub =>
    have hq : q = ⟨q.sup, true⟩ := by rw [← hm.1]
    rw [hm.2, hq]
    obtain ⟨c, hc, rfl⟩ := hk
    have he := (key c (by simp [hc]) rfl).entryOk h1 nl
    obtain ⟨e1, e2⟩ := d2 c hc
    simp only [entryOk, has_iff, e1, e2, hc, if_true, if_false] at he
    exact subic_sound he _
  | blank =>
    cases hm
    have : tokens s = [] := by
      rcases hk with rfl | ⟨c, hc, rfl⟩
      · rcases hs with hs | ⟨-, hg⟩
        · have he := hs.entryOk h1 nl
          simpa [entryOk, blankic] using he
        · rcases hg with rfl | ⟨h, -⟩
          · rfl
          · exact absurd rfl h
      · have he := (key c (by simp [hc]) rfl).entryOk h1 nl
        obtain ⟨⟨e1, e2⟩, e3⟩ := d3 c hc
        simp only [entryOk, has_iff, e1, e2, e3, hc, if_true, if_false] at he
        simpa [blankic] using he
    rw [this]; exact .nil

theorem Spec.Sign.mi {k s : Str} {e : Effect} (hk : Sign miSigns k e)
    (hsp : ∀ c t, k = c :: t → isSpace c = false) (hs : MiSymbol k s) {q q' : Room}
    (hm : e.Moves q q') : Latex (.run q q') (tokens s) := by
  have hd := disjoint_signs
  simp only [Bool.and_eq_true] at hd
  have ht : tablesOk miSigns [] [allMathSymbolsByChar, allMathSymbolsByGlyph,
    mathNumberByGlyph] :=
    ⟨tableOk_mi1, tableOk_mi2, tableOk_mi3, trivial⟩
  exact Sign.latex ht allListed_mi hd.1.1 hk hsp (hs.imp_right fun h => ⟨h.1, h.2.latex⟩) hm

theorem Spec.Sign.mo {k s : Str} {e : Effect} (hk : Sign moSigns k e)
    (hsp : ∀ c t, k = c :: t → isSpace c = false) (hs : MoSymbol k s) {q q' : Room}
    (hm : e.Moves q q') : Latex (.run q q') (tokens s) := by
  have hd := disjoint_signs
  simp only [Bool.and_eq_true] at hd
  have ht : tablesOk moSigns [] [allMathOperatorsByChar, allMathOperatorsByGlyph,
    mathNumberByGlyph] :=
    ⟨tableOk_mo1, tableOk_mo2, tableOk_mo3, trivial⟩
  exact Sign.latex ht allListed_mo hd.1.2 hk hsp (hs.imp_right fun h => ⟨h.1, h.2.latex⟩) hm

theorem Spec.Sign.mn {k s : Str} {e : Effect} (hk : Sign mnSigns k e)
    (hsp : ∀ c t, k = c :: t → isSpace c = false) (hs : MnSymbol k s) {q q' : Room}
    (hm : e.Moves q q') : Latex (.run q q') (tokens s) := by
  have hd := disjoint_signs
  simp only [Bool.and_eq_true] at hd
  have ht : tablesOk mnSigns [] [mathNumberByGlyph] := ⟨tableOk_mn, trivial⟩
  exact Sign.latex ht allListed_mn hd.2 hk hsp (hs.imp_right fun h => ⟨h.1, .inl h.2⟩) hm

end Verif
