import Verif.Source.Exec
import Verif.Source.Fuel
import Verif.Model.Latex

/-!
# Functions without calls back into the converter

The methods of services/, `Character`, `Operator`, `HashUTF8ToLtXConverter`, and the getters
of the elements, executed on the syntax trees.
-/

namespace Verif.Src

attribute [local irreducible] vowelsWithAccents accentToLtxCmd specialFontChars allMathSymbolsByChar
  allMathSymbolsByGlyph mathNumberByGlyph allMathOperatorsByChar allMathOperatorsByGlyph

variable {env : Env}

theorem ok_congr {v v' : Val} {h h' : Store} (hv : v = v') (hh : h = h') :
    (Res.ok v h) = Res.ok v' h' := by rw [hv, hh]

/-- The objects created. -/
macro "created" : tactic => `(tactic| (
  refine ⟨?_, ok_congr ?_ ?_⟩
  rotate_left 2
  · first
    | rfl
    | (simp only [List.append_assoc]; rfl)
    | exact (List.append_nil _).symm
  · first
    | rfl
    | simp))

@[simp] theorem strings_map (ss : List Str) : strings (ss.map Val.str) = some ss := by
  induction ss with
  | nil => rfl
  | cons s ss ih => simp [strings, ih]

/-! ## services -/

theorem run_normalize (a : Nat) (s : Str) (h : Store) (n : Nat) :
    call env (n + 1) WhiteSpaceNormalizer_normalize [.obj a, .str s] [] h =
      .ok (.str (normalize s)) (h ++ [.list ((split s).map .str)]) := by
  sym [WhiteSpaceNormalizer_normalize]; rfl

/-- An instance of one of the wrapper classes. -/
abbrev wrapperObj (c : Ident) (op close : Str) : Obj :=
  .inst c [(._open, .str op), (._close, .str close)]

theorem run_parenWrap {a : Nat} {h : Store}
    (ha : h[a]? = some (wrapperObj .ParenthesisWrapper c!"\\left(" c!"\\right)")) (val : Str)
    (n : Nat) : call env (n + 2) ParenthesisWrapper_wrap [.obj a, .str val] [] h =
      .ok (.str (parenWrap val)) h := by
  sym [ParenthesisWrapper_wrap, Wrapper_wrap] [ha]
  simp [parenWrap, wrap]

theorem run_bracketWrap {a : Nat} {h : Store}
    (ha : h[a]? = some (wrapperObj .BracketWrapper c!"{" c!"}")) (val : Str)
    (n : Nat) : call env (n + 2) BracketWrapper_wrap [.obj a, .str val] [] h =
      .ok (.str (bracketWrap val)) h := by
  sym [BracketWrapper_wrap, Wrapper_wrap] [ha]
  simp [bracketWrap, wrap]

theorem run_parenWrapIf {a : Nat} {h : Store}
    (ha : h[a]? = some (wrapperObj .ParenthesisWrapper c!"\\left(" c!"\\right)")) (val : Str)
    (n : Nat) :
    call env (n + 3) ParenthesisWrapper_wrap_if_more_than_one_char [.obj a, .str val] [] h =
      .ok (.str (parenWrapIfMoreThanOneChar val)) h := by
  by_cases hv : val.length ≤ 1
  · have hv' : (val.length : Int) ≤ 1 := by omega
    sym [ParenthesisWrapper_wrap_if_more_than_one_char] [ha] [hv']
    simp [parenWrapIfMoreThanOneChar, hv]
  · have hv' : ¬ (val.length : Int) ≤ 1 := by omega
    sym [ParenthesisWrapper_wrap_if_more_than_one_char] [ha, run_parenWrap] [hv, hv']
    simp [parenWrapIfMoreThanOneChar, hv]

/-! ## The elements -/

/-- An instance of `GenericMathMLElement`: name, value, address of the list of children,
address of the attributes. -/
abbrev elemObj (name value : Str) (la d : Nat) : Obj :=
  .inst .GenericMathMLElement
    [(._name, .str name), (._value, .str value), (._children, .obj la), (._attributes, .obj d)]

section
variable {a la d : Nat} {name value : Str} {h : Store} (ha : h[a]? = some (elemObj name value la d))
  (n : Nat)
include ha

theorem run_name : call env (n + 1) GenericMathMLElement_name [.obj a] [] h = .ok (.str name) h := by
  sym [GenericMathMLElement_name] [ha]
theorem run_value :
    call env (n + 1) GenericMathMLElement_value [.obj a] [] h = .ok (.str value) h := by
  sym [GenericMathMLElement_value] [ha]
theorem run_children :
    call env (n + 1) GenericMathMLElement_children [.obj a] [] h = .ok (.obj la) h := by
  sym [GenericMathMLElement_children] [ha]
theorem run_attributes :
    call env (n + 1) GenericMathMLElement_attributes [.obj a] [] h = .ok (.obj d) h := by
  sym [GenericMathMLElement_attributes] [ha]
end

/-! ## syntax.py -/

theorem inClass_alnum (c : Char) :
    inClass true [('0', '9'), ('a', 'z')] c = alnumIgnoreCase c := by
  have hc : ∀ d : Char, [('0', '9'), ('a', 'z')].any (fun r =>
      decide (r.1.toNat ≤ d.toNat) && decide (d.toNat ≤ r.2.toNat)) =
      decide ((0x30 ≤ d.toNat ∧ d.toNat ≤ 0x39) ∨ (0x61 ≤ d.toNat ∧ d.toNat ≤ 0x7A)) := by
    intro d; simp [Bool.decide_and, Bool.decide_or]
  have hn : ∀ n, n < 0xD800 → (Char.ofNat n).toNat = n := by
    intro n hn
    rw [Char.ofNat, dif_pos (Or.inl hn)]
    rfl
  unfold inClass alnumIgnoreCase isAsciiAlnum caseVariants
  simp only [if_true]
  repeat' split
  all_goals
    simp only [List.any_cons, List.any_nil, hc, Bool.or_false]
    rw [Bool.eq_iff_iff]
    simp
    try rw [hn (c.toNat + 32) (by omega)]
    try rw [hn (c.toNat - 32) (by omega)]
    omega

theorem compile_alnum (w : Char → Bool) : compilePattern w true false c!"[a-z0-9]" =
    some ⟨false, .seq (.cls (inClass true [('0', '9'), ('a', 'z')])) .eps, false⟩ := rfl

/-- The test of syntax.py 26. -/
def startsAlnum : Str → Bool
  | [] => false
  | c :: _ => alnumIgnoreCase c

theorem matches_alnum (s : Str) :
    Pattern.matches ⟨false, .seq (.cls (inClass true [('0', '9'), ('a', 'z')])) .eps, false⟩ s =
      startsAlnum s := by
  cases s with
  | nil => rfl
  | cons c s => simp only [Pattern.matches, Re.run, inClass_alnum, startsAlnum]; cases alnumIgnoreCase c <;> rfl

/-- `None` or a string. -/
def optStr : Option Str → Val
  | some s => .str s
  | none => .none

theorem run_accent (a : Nat) (p : Str × Str) (h : Store) (n : Nat) :
    call env (n + 1) HashUTF8ToLtXConverter_convert_accent_char_to_ltx
      [.obj a, .record [(.char, p.1), (.accent, p.2)]] [] h =
      .ok (optStr (convertAccentCharToLtx p)) h := by
  unfold convertAccentCharToLtx
  generalize hp : Dict.get? accentToLtxCmd p.2 = o
  cases o with
  | none => sym [HashUTF8ToLtXConverter_convert_accent_char_to_ltx] [hp]; rfl
  | some cmd =>
    cases cmd with
    | nil => sym [HashUTF8ToLtXConverter_convert_accent_char_to_ltx] [hp]; rfl
    | cons c cs => sym [HashUTF8ToLtXConverter_convert_accent_char_to_ltx] [hp]; simp [optStr]

theorem convertSpecialCharToLtx_eq (s : Str) : convertSpecialCharToLtx s =
    (Dict.get? specialFontChars s).map fun p => c!"\\" ++ p.2 ++ c!"{" ++ p.1 ++ c!"}" := by
  unfold convertSpecialCharToLtx
  generalize Dict.get? specialFontChars s = o
  cases o <;> rfl

theorem hashConvert_eq (s : Str) : hashConvert s =
    if startsAlnum s then s
    else match Dict.get? vowelsWithAccents s with
      | some p => (convertAccentCharToLtx p).getD s
      | none => (convertSpecialCharToLtx s).getD s := by
  unfold hashConvert
  generalize Dict.get? vowelsWithAccents s = o
  generalize convertSpecialCharToLtx s = o'
  cases o with
  | none => cases s <;> cases o' <;> rfl
  | some p =>
    generalize hq : convertAccentCharToLtx p = q
    cases s <;> cases q <;> simp only [startsAlnum, hq] <;> rfl

theorem run_special (a : Nat) (s : Str) (h : Store) (n : Nat) :
    call env (n + 1) HashUTF8ToLtXConverter_convert_special_char_to_ltx
      [.obj a, .str s] [] h = .ok (optStr (convertSpecialCharToLtx s)) h := by
  rw [convertSpecialCharToLtx_eq]
  generalize hp : Dict.get? specialFontChars s = o
  cases o <;> sym [HashUTF8ToLtXConverter_convert_special_char_to_ltx] [hp] <;> simp [optStr]

theorem accent_nonempty {p : Str × Str} {t : Str} (hs : convertAccentCharToLtx p = some t) :
    t.isEmpty = false := by
  unfold convertAccentCharToLtx at hs
  split at hs
  · cases hs
  · split at hs
    · cases hs
    · cases hs; rfl

theorem special_nonempty {s t : Str} (hs : convertSpecialCharToLtx s = some t) :
    t.isEmpty = false := by
  rw [convertSpecialCharToLtx_eq] at hs
  obtain ⟨p, _, rfl⟩ := Option.map_eq_some_iff.1 hs
  rfl

theorem run_hash {a : Nat} {h : Store} (ha : h[a]? = some (.inst .HashUTF8ToLtXConverter []))
    (s : Str) (n : Nat) :
    call env (n + 2) HashUTF8ToLtXConverter_convert [.obj a, .str s] [] h =
      .ok (.str (hashConvert s)) h := by
  have h1 := fun p => run_accent (env := env) a p h n
  have h2 := run_special (env := env) a s h n
  rw [hashConvert_eq]
  generalize hm : startsAlnum s = m
  generalize hv : Dict.get? vowelsWithAccents s = v
  generalize hs : convertSpecialCharToLtx s = sp at h2
  cases m with
  | true => sym [HashUTF8ToLtXConverter_convert] [compile_alnum, ha] [matches_alnum, hm]; rfl
  | false =>
    cases v with
    | none =>
      cases sp with
      | none => sym [HashUTF8ToLtXConverter_convert] [compile_alnum, ha, hv, h2] [matches_alnum, hm, optStr]; rfl
      | some t =>
        sym [HashUTF8ToLtXConverter_convert] [compile_alnum, ha, hv, h2] [matches_alnum, hm, optStr, special_nonempty hs]; rfl
    | some p =>
      replace h1 := h1 p
      generalize hs : convertAccentCharToLtx p = sp at h1
      cases sp with
      | none => sym [HashUTF8ToLtXConverter_convert] [compile_alnum, ha, hv, h1] [matches_alnum, hm, optStr, hs]; simp [hs]
      | some t =>
        sym [HashUTF8ToLtXConverter_convert] [compile_alnum, ha, hv, h1] [matches_alnum, hm, optStr, accent_nonempty hs]; simp [hs]

end Verif.Src
