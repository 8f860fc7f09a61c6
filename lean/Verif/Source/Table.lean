import Verif.Source.Fenced

/-!
# `MTable`
-/

namespace Verif.Src

attribute [local irreducible] vowelsWithAccents accentToLtxCmd specialFontChars allMathSymbolsByChar
  allMathSymbolsByGlyph mathNumberByGlyph allMathOperatorsByChar allMathOperatorsByGlyph

variable {env : Env} {B : Nat}
variable {φ : Nat → Nat} {N : Dom} {H : Heap} {S : Store} {ad e : Nat} {name value : Str} {r : Nat}
  {cs : List Elem} {la : Nat} {as : List Nat} {c : Nat}

/-! ## The marker -/

/-- usecases.py 390–392: the body of the loop. -/
abbrev flagBody : List Stmt :=
   [.ite (.cmp .eq (.attr (.name .mathml_element) .«name») (.name .«name»))
    [.setItem (.attr (.name .mathml_element) .attributes) (.name .flag) (.name .flag)]
    [],
    .expr (.call (.attr (.name .self) ._add_flag_recursive_if_name) [.attr (.name .mathml_element) .children, .name .«name», .name .flag] [] [])]

/-- The variables of the loop. -/
structure FlagLocals (l : Locals) (f : Nat) (nm fl : Str) : Prop where
  self : look .self l = some (.obj f)
  nam : look .«name» l = some (.str nm)
  flag : look .flag l = some (.str fl)

theorem FlagLocals.cons {l : Locals} {f : Nat} {nm fl : Str} (h : FlagLocals l f nm fl) (v : Val) :
    FlagLocals ((.mathml_element, v) :: l) f nm fl := ⟨h.1, h.2, h.3⟩

theorem addFlag1_eq (nm fl m vl : Str) (r : Nat) (cs : List Elem) (H : Heap) :
    addFlag1 nm fl (.mk m vl r cs) H =
      addFlagRecursiveIfName nm fl cs (if m = nm then H.setItem r fl fl else H) := by
  rw [addFlag1]
  by_cases h : m = nm
  · simp only [h, beq_self_eq_true, if_true]; rfl
  · simp only [h, beq_iff_eq, if_false]

mutual
theorem run_flag1 {nm fl : Str} (hnm : nm = c!"mtable") (hfl : fl = innerTable) {f : Nat} {fs : List (Ident × Val)}
    (hff : look ._add_flag_recursive_if_name fs = none) :
    ∀ (x : Elem) (a : Nat) (N : Dom) (S : Store) (H : Heap) (l : Locals), FlagLocals l f nm fl →
      S[f]? = some (.inst .MTable fs) → IsElem φ N.all S x a → Dicts φ N H S →
      ∃ H' S', addFlag1 nm fl x H = (.ok (), H') ∧ Ext S S' ∧ Dicts φ (N.add (tabs x)) H' S' ∧ ∀ n, deep x ≤ n →
        execs ⟨env, call env n, n⟩ flagBody ((.mathml_element, .obj a) :: l) S =
          .next ((.mathml_element, .obj a) :: l) S'
  | .mk m vl r cs, a, N, S, H, l, ⟨l1, l2, l3⟩, hf, hi, hd => by
    unfold IsElem at hi
    obtain ⟨hr, la, as, h1, h2, h3⟩ := hi
    rw [addFlag1_eq, deep]
    by_cases hm : m = nm
    · rw [if_pos hm]
      obtain ⟨d, hdr, hset⟩ := hd.is hr
      replace hset := hset fl
      rw [← hfl] at hset
      have he := Ext.setDict (d' := Dict.set d fl (.str fl)) hdr
      have hd1 := hd.set hr fl fl
      rw [← hset] at hd1
      obtain ⟨H', S', l', q1, q2, q3, q4⟩ := run_flags (f := f) hnm hfl hff cs as (N.add (· = r)) _ _
        [(.self, .obj f), (.mathml_elements, .obj la), (.«name», .str nm), (.flag, .str fl)] ⟨rfl, rfl, rfl⟩
        (he.get hf rfl) (h3.mono he) hd1
      refine ⟨H', S', q1, he.trans q2, q3.less rfl ?_, fun n hn => ?_⟩
      · rintro s (hs | ⟨hs, ha⟩)
        · exact .inl (.inl hs)
        · unfold tabs at hs
          rcases hs with ⟨_, hs⟩ | hs
          · exact .inl (.inr ⟨hs, ha⟩)
          · exact .inr ⟨hs, ha⟩
      obtain ⟨n, rfl⟩ : ∃ m, n = m + 1 := ⟨n - 1, by omega⟩
      replace q4 := q4 n (by omega)
      sym [MTable__add_flag_recursive_if_name] [l1, l2, l3, hf, hff, h1, h2, run_name, run_children, run_attributes, hdr, he.get, q4] [hm]
    · rw [if_neg hm]
      obtain ⟨H', S', l', q1, q2, q3, q4⟩ := run_flags (f := f) hnm hfl hff cs as N S _
        [(.self, .obj f), (.mathml_elements, .obj la), (.«name», .str nm), (.flag, .str fl)] ⟨rfl, rfl, rfl⟩
        hf h3 hd
      refine ⟨H', S', q1, q2, q3.less rfl ?_, fun n hn => ?_⟩
      · rintro s (hs | ⟨hs, ha⟩)
        · exact .inl hs
        · unfold tabs at hs
          rcases hs with ⟨e, _⟩ | hs
          · exact absurd (e.trans hnm.symm) hm
          · exact .inr ⟨hs, ha⟩
      obtain ⟨n, rfl⟩ : ∃ m, n = m + 1 := ⟨n - 1, by omega⟩
      replace q4 := q4 n (by omega)
      sym [MTable__add_flag_recursive_if_name] [l1, l2, l3, hf, hff, h1, h2, run_name, run_children, q4] [hm]
theorem run_flags {nm fl : Str} (hnm : nm = c!"mtable") (hfl : fl = innerTable) {f : Nat} {fs : List (Ident × Val)}
    (hff : look ._add_flag_recursive_if_name fs = none) :
    ∀ (xs : List Elem) (as : List Nat) (N : Dom) (S : Store) (H : Heap) (l : Locals), FlagLocals l f nm fl →
      S[f]? = some (.inst .MTable fs) → IsElems φ N.all S xs as → Dicts φ N H S →
      ∃ H' S' l', addFlagRecursiveIfName nm fl xs H = (.ok (), H') ∧ Ext S S' ∧ Dicts φ (N.add (tabsL xs)) H' S' ∧
        ∀ n, deeps xs ≤ n → ∀ i, forOut (fun _ v l => (.mathml_element, v) :: l)
          (execs ⟨env, call env n, n⟩ flagBody) i (as.map .obj) l S = .next l' S'
  | [], [], N, S, H, l, _, _, _, hd => ⟨H, S, l, rfl, .refl S, hd.less rfl (by
      rintro s (hs | ⟨hs, _⟩)
      · exact hs
      · unfold tabsL at hs
        exact hs.elim), fun _ _ _ => rfl⟩
  | x :: xs, a :: as, N, S, H, l, hl, hf, hi, hd => by
    unfold IsElems at hi
    rw [deeps]
    obtain ⟨H1, S1, p1, p2, p3, p4⟩ := run_flag1 hnm hfl hff x a N S H l hl hf hi.1 hd
    obtain ⟨H', S', l', q1, q2, q3, q4⟩ := run_flags hnm hfl hff xs as (N.add (tabs x)) S1 H1 _ (hl.cons (.obj a))
      (p2.get hf rfl) (hi.2.mono p2) p3
    refine ⟨H', S', l', ?_, p2.trans q2, q3.less rfl ?_, fun n hn i => ?_⟩
    · rw [addFlagRecursiveIfName, Stack.M_bind_ok p1, q1]
    · rintro s (hs | ⟨hs, ha⟩)
      · exact .inl (.inl hs)
      · unfold tabsL at hs
        rcases hs with hs | hs
        · exact .inl (.inr ⟨hs, ha⟩)
        · exact .inr ⟨hs, ha⟩
    · rw [List.map_cons, forOut, p4 n (by omega)]
      exact q4 n (by omega) (i + 1)
  | [], _ :: _, _, _, _, _, _, _, hi, _ => by simp [IsElems] at hi
  | _ :: _, [], _, _, _, _, _, _, hi, _ => by simp [IsElems] at hi
end

/-! ## The whole method -/

theorem run_mtable (hat : At φ N H S ad e name value r cs la as) (hok : ∀ x ∈ cs, ElemOK env N (B + 12) x)
    (hc : S[c]? = some (plainObj .MTable e ad)) :
    RunsBy (B + 14) (fun n => call env n MTable_convert [.obj c] [] S)
      (Agrees φ N S (mtableConvert r (kidsOf cs) H)) := by
  obtain ⟨h1, h2, h3, h4, h5, h6⟩ := hat
  unfold mtableConvert
  rcases run_kids (env := env) (l := [(.self, .obj c)]) hok ⟨h1, c, _, _, rfl, hc, rfl, rfl⟩ h5 h6 with
    ⟨ss, H', h', hx, hr, he, hd⟩ | ⟨x, H', v, h', hx, hr, hR⟩
  · rw [Stack.M_bind_ok hx]
    rw [attributes_bind]
    have hdr := hd.get r h4
    have hg := get_dictVal (H'.cells r) innerTable
    unfold Attrs.getD
    generalize hq : Dict.get? (H'.cells r) innerTable = o at hg
    unfold innerTable at hg
    fuel 13
    fuel B
    rcases o with _ | _ | ⟨t, ts⟩
    · sym [MTable_convert, MTable__has_flag] [h2, hc, h3, run_children, run_attributes, hr, strings_map, he.get, hdr, hg]
      exact .ok rfl rfl (he.app' _) (hd.app _)
    · sym [MTable_convert, MTable__has_flag] [h2, hc, h3, run_children, run_attributes, hr, strings_map, he.get, hdr, hg]
      exact .ok rfl rfl (he.app' _) (hd.app _)
    · sym [MTable_convert, MTable__has_flag, MTable__wrap] [h2, hc, h3, run_children, run_attributes, hr, strings_map, he.get, hdr, hg]
      exact .ok rfl (by simp) (he.app' _) (hd.app _)
  · rw [Stack.M_bind_error hx]
    fuel 13
    fuel B
    sym [MTable_convert] [h2, hc, h3, run_children, hr]
    exact .exc rfl hR

end Verif.Src
