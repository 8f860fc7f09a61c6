import Verif.Source.Leaf

/-!
# `Character`, `Operator`, and the token classes `MI`, `MO`, `MN`
-/

namespace Verif.Src

attribute [local irreducible] vowelsWithAccents accentToLtxCmd specialFontChars allMathSymbolsByChar
  allMathSymbolsByGlyph mathNumberByGlyph allMathOperatorsByChar allMathOperatorsByGlyph

variable {env : Env}

theorem run_character (s : Str) (h : Store) :
    Yields 7 env Character_apply [.str s] h (.str (characterApply s)) := by
  unfold characterApply Yields
  generalize h1 : Dict.get? allMathSymbolsByChar s = o1
  generalize h2 : Dict.get? allMathSymbolsByGlyph s = o2
  generalize h3 : Dict.get? mathNumberByGlyph s = o3
  fuel 7
  rcases o1 with _ | _ | ⟨c, cs⟩ <;> rcases o2 with _ | _ | ⟨c', cs'⟩ <;>
    rcases o3 with _ | _ | ⟨c'', cs''⟩ <;>
    (sym [Character_apply, Character___init__, Character__apply, Character__find_by_character,
      Character__find_by_glyph, Character__find_by_number] [h1, h2, h3, run_hash]
     created)

theorem run_operator (s : Str) (h : Store) :
    Yields 7 env Operator_operate [.str s] h (.str (operate s)) := by
  unfold operate Yields
  generalize h1 : Dict.get? allMathOperatorsByChar s = o1
  generalize h2 : Dict.get? allMathOperatorsByGlyph s = o2
  generalize h3 : Dict.get? mathNumberByGlyph s = o3
  fuel 7
  rcases o1 with _ | _ | ⟨c, cs⟩ <;> rcases o2 with _ | _ | ⟨c', cs'⟩ <;>
    rcases o3 with _ | _ | ⟨c'', cs''⟩ <;>
    (sym [Operator_operate, Operator___init__, Operator__operate, Operator__find_by_character,
      Operator__find_by_glyph, Operator__find_by_number] [h1, h2, h3, run_hash]
     created)

theorem run_wrapVariant (a : Nat) (value variant : Str) (h : Store) (n : Nat) :
    call env (n + 1) MI__wrap_in_math_variant [.obj a, .str value, .str variant] [] h =
      .ok (.str (wrapInMathVariant value variant)) h := by
  unfold wrapInMathVariant
  iterate 13
    test hv
    · subst hv; sym [MI__wrap_in_math_variant]; try simp
  sym [MI__wrap_in_math_variant] [] [*]

/-! ## Attribute dictionaries -/

/-- A dictionary of strings, as a dictionary of values. -/
def dictVal (A : Attrs) : Dict Val := A.map fun p => (p.1, .str p.2)

theorem get_dictVal (A : Attrs) (k : Str) : Dict.get? (dictVal A) k = (Dict.get? A k).map .str := by
  induction A with
  | nil => rfl
  | cons p A ih =>
    obtain ⟨k', v⟩ := p
    simp only [dictVal, List.map_cons, Dict.get?] at ih ⊢
    rw [ih]
    cases Dict.get? A k with
    | some w => rfl
    | none => simp only [Option.map]; split <;> rfl

theorem set_dictVal (A : Attrs) (k v : Str) :
    Dict.set (dictVal A) k (.str v) = dictVal (Dict.set A k v) := by
  have : A.any (fun p => p.1 == k) = (dictVal A).any (fun p => p.1 == k) := by
    rw [dictVal, List.any_map]; rfl
  unfold Dict.set
  rw [this]
  split
  · simp only [dictVal, List.map_map]
    refine List.map_congr_left fun p _ => ?_
    simp only [Function.comp]
    split <;> rfl
  · simp [dictVal]

theorem true_dictVal (A : Attrs) : dictTrue (dictVal A) = some (!A.isEmpty) := by
  have h : ((dictVal A).all fun p => ((Dict.get? (dictVal A) p.1).map isText).getD true) = true := by
    rw [List.all_eq_true]
    intro p _
    rw [get_dictVal]
    cases Dict.get? A p.1 <;> rfl
  rw [dictTrue, if_pos h]
  cases A <;> rfl

theorem has_dictVal (A : Attrs) (k : Str) : dictHas (dictVal A) k = some (Dict.get? A k).isSome := by
  unfold dictHas
  rw [get_dictVal]
  cases Dict.get? A k <;> rfl

theorem run_getMathVariant {d : Nat} {h : Store} {A : Attrs} (hd : h[d]? = some (.dict (dictVal A)))
    (a n : Nat) : call env (n + 1) MI__get_math_variant [.obj a, .obj d] [] h =
      .ok (.str (getMathVariant A)) h := by
  have h1 := true_dictVal A
  have h2 := has_dictVal A c!"mathvariant"
  have h3 := get_dictVal A c!"mathvariant"
  unfold getMathVariant Attrs.getD
  generalize hg : Dict.get? A c!"mathvariant" = o at h2 h3
  cases hA : A.isEmpty with
  | true =>
    have : A = [] := by cases A with | nil => rfl | cons p A => cases hA
    subst this
    cases hg
    sym [MI__get_math_variant] [hd, h1] [hA]
    rfl
  | false =>
    rw [hA] at h1
    cases o with
    | none => sym [MI__get_math_variant] [hd, h1, h2]; rfl
    | some v => sym [MI__get_math_variant] [hd, h1, h2, h3]; rfl

/-! ## `MI`, `MO`, `MN` -/

/-- An instance of `MI`. -/
abbrev miObj (u w e : Nat) : Obj :=
  .inst .MI [(._utf8_converter, .obj u), (._normalizer, .obj w), (._math_element, .obj e)]

theorem run_mi {a u w e la d : Nat} {name value : Str} {A : Attrs} {h : Store}
    (ha : h[a]? = some (miObj u w e)) (hu : h[u]? = some (.inst .HashUTF8ToLtXConverter []))
    (hw : h[w]? = some (.inst .WhiteSpaceNormalizer []))
    (he : h[e]? = some (elemObj name value la d)) (hd : h[d]? = some (.dict (dictVal A))) :
    Yields 8 env MI_convert [.obj a] h (.str (miConvert value A)) := by
  unfold Yields miConvert
  dsimp only
  fuel 8
  test h1
  · sym [MI_convert] [ha, hu, hw, he, hd, run_normalize, run_value] [h1]
    step hc run_character
    sym [MI_convert] [ha, hu, hw, he, hd, run_normalize, run_value, hc] [h1]
    created
  · sym [MI_convert] [ha, hu, hw, he, hd, run_normalize, run_value] [h1]
    step hc run_character
    test h2
    · sym [MI_convert] [ha, hu, hw, he, hd, run_normalize, run_value, hc, run_hash] [h2]
      created
    · have h2 := Classical.not_not.1 h2
      sym [MI_convert] [ha, hu, hw, he, hd, run_normalize, run_value, hc, run_hash, run_attributes, run_getMathVariant, run_wrapVariant] [h2]
      created

/-- An instance of `MIMathMlElement`. -/
abbrev miElemObj (value : Str) : Obj := .inst .MIMathMlElement [(._value, .str value)]

theorem run_getMathVariant_nil {d : Nat} {h : Store} (hd : h[d]? = some (.dict []))
    (a n : Nat) : call env (n + 1) MI__get_math_variant [.obj a, .obj d] [] h =
      .ok (.str (getMathVariant [])) h := run_getMathVariant (A := []) hd a n

theorem run_miValue {a : Nat} {value : Str} {h : Store} (ha : h[a]? = some (miElemObj value))
    (n : Nat) : call env (n + 1) MIMathMlElement_value [.obj a] [] h = .ok (.str value) h := by
  sym [MIMathMlElement_value] [ha]

theorem run_miChar {a u w e : Nat} {value : Str} {h : Store}
    (ha : h[a]? = some (miObj u w e)) (hu : h[u]? = some (.inst .HashUTF8ToLtXConverter []))
    (hw : h[w]? = some (.inst .WhiteSpaceNormalizer []))
    (he : h[e]? = some (miElemObj value)) :
    Yields 8 env MI_convert [.obj a] h (.str (miConvert value [])) := by
  unfold Yields miConvert
  dsimp only
  fuel 8
  test h1
  · sym [MI_convert] [ha, hu, hw, he, run_normalize, run_miValue] [h1]
    step hc run_character
    sym [MI_convert] [ha, hu, hw, he, run_normalize, run_miValue, hc] [h1]
    created
  · sym [MI_convert] [ha, hu, hw, he, run_normalize, run_miValue] [h1]
    step hc run_character
    test h2
    · sym [MI_convert] [ha, hu, hw, he, run_normalize, run_miValue, hc, run_hash] [h2]
      created
    · have h2 := Classical.not_not.1 h2
      sym [MI_convert, MIMathMlElement_attributes] [ha, hu, hw, he, run_normalize, run_miValue, hc, run_hash, run_getMathVariant_nil, run_wrapVariant] [h2]
      created

/-- An instance of `MO`. -/
abbrev moObj (w e : Nat) : Obj := .inst .MO [(.normalizer, .obj w), (._math_element, .obj e)]

theorem run_mo {a w e la d : Nat} {name value : Str} {h : Store}
    (ha : h[a]? = some (moObj w e)) (hw : h[w]? = some (.inst .WhiteSpaceNormalizer []))
    (he : h[e]? = some (elemObj name value la d)) :
    Yields 8 env MO_convert [.obj a] h (.str (moConvert value)) := by
  unfold Yields moConvert
  fuel 8
  sym [MO_convert] [ha, hw, he, run_normalize, run_value]
  step hc run_operator
  sym [] [hc]
  created

/-- An instance of `MN`. -/
abbrev mnObj (w e : Nat) : Obj := .inst .MN [(._normalizer, .obj w), (._math_element, .obj e)]

theorem run_mn {a w e la d : Nat} {name value : Str} {h : Store}
    (ha : h[a]? = some (mnObj w e)) (hw : h[w]? = some (.inst .WhiteSpaceNormalizer []))
    (he : h[e]? = some (elemObj name value la d)) :
    Yields 5 env MN_convert [.obj a] h (.str (mnConvert value)) := by
  unfold Yields mnConvert
  dsimp only
  fuel 5
  generalize hg : Dict.get? mathNumberByGlyph (strip (normalize value)) = o
  rcases o with _ | _ | ⟨c, cs⟩ <;>
    (sym [MN_convert] [ha, hw, he, run_normalize, run_value, hg]; created)

/-! ## `TextCommand` and `MText` -/

/-- An instance of `TextCommand`; an absent or empty variant is replaced. -/
abbrev textObj (variant : Str) : Obj :=
  .inst .TextCommand [(._math_variant, .str (if variant = [] then c!"normal" else variant))]

theorem run_commands {a : Nat} {variant : Str} {h : Store} (ha : h[a]? = some (textObj variant)) :
    ∃ L, ∀ n, call env (n + 1) TextCommand__commands [.obj a] [] h =
      .ok (.obj (h.length + L.length)) (h ++ L ++ [.list ((textCommands variant).map .str)]) := by
  unfold textCommands
  by_cases h0 : variant = []
  · subst h0
    refine ⟨[.list [.str c!"bold-fraktur", .str c!"fraktur"]], fun n => ?_⟩
    sym [TextCommand__commands] [ha]
    simp
  · rw [textObj, if_neg h0] at ha
    iterate 5
      test hv
      · subst hv
        refine ⟨[], fun n => ?_⟩
        sym [TextCommand__commands] [ha]
        simp
    refine ⟨[.list [.str c!"bold-fraktur", .str c!"fraktur"]], fun n => ?_⟩
    by_cases h1 : variant = c!"bold-fraktur"
    · subst h1
      sym [TextCommand__commands] [ha]
      simp
    · by_cases h2 : variant = c!"fraktur"
      · subst h2
        sym [TextCommand__commands] [ha]
        simp
      · sym [TextCommand__commands] [ha] [*]
        simp [h1, h2]

theorem textCommands_cases (variant : Str) :
    (∃ c, textCommands variant = [c]) ∨ ∃ c d, textCommands variant = [c, d] := by
  unfold textCommands
  iterate 6
    test hv
    · exact by first | exact .inl ⟨_, rfl⟩ | exact .inr ⟨_, _, rfl⟩
  exact .inl ⟨_, rfl⟩

theorem run_textCommand {a : Nat} {variant : Str} {h : Store} (ha : h[a]? = some (textObj variant))
    (value : Str) : Yields 2 env TextCommand_apply [.obj a, .str value] h
      (.str (textCommandApply variant value)) := by
  unfold Yields textCommandApply
  obtain ⟨L, hL⟩ := run_commands (env := env) ha
  fuel 2
  obtain ⟨c, hc⟩ | ⟨c, d, hc⟩ := textCommands_cases variant
  · rw [hc] at hL ⊢
    sym [TextCommand_apply] [ha, hL]
    created
  · rw [hc] at hL ⊢
    sym [TextCommand_apply] [ha, hL]
    created

end Verif.Src
