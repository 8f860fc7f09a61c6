import Verif.Lemmas.Node
import Verif.Lemmas.Regex

/-! # The rules describe exactly the successful conversions -/

namespace Verif
open Spec

/-! ## The pieces -/

theorem parensIfLong_eq (s : Str) : parenWrapIfMoreThanOneChar s = parensIfLong s := by
  unfold parenWrapIfMoreThanOneChar parensIfLong
  by_cases h : s.length ≤ 1
  · rw [if_pos h, if_neg (by omega)]
  · rw [if_neg h, if_pos (by omega)]; rfl

theorem bracketWrap_eq (s : Str) : bracketWrap s = braces s := rfl

theorem stacked_eq (under : Bool) (content accent : Str) : underOverApply under content accent =
    stacked (if under then c!"\\underset" else c!"\\overset") content accent := by
  unfold underOverApply stacked accentCommands braces
  simp only [List.mem_cons, List.not_mem_nil, or_false]
  split <;> simp

theorem search_under_munder : (Re.lit c!"under").search c!"munder" = true := by decide +kernel
theorem search_under_mover : (Re.lit c!"under").search c!"mover" = false := by decide +kernel

theorem enclosure_eq (n content : Str) :
    encloseLatex n content = (enclosure n).1 ++ content ++ (enclosure n).2 := by
  unfold encloseLatex
  by_cases h1 : n = c!"actuarial"
  · subst h1; simp [enclosure, enclosures]
  rw [if_neg h1]
  by_cases h2 : n = c!"radical"
  · subst h2; simp [enclosure, enclosures]
  rw [if_neg h2]
  by_cases h3 : n = c!"box"
  · subst h3; simp [enclosure, enclosures]
  by_cases h3' : n = c!"roundedbox"
  · subst h3'; simp [enclosure, enclosures]
  by_cases h3'' : n = c!"circle"
  · subst h3''; simp [enclosure, enclosures]
  rw [if_neg (by simp only [not_or]; exact ⟨h3, h3', h3''⟩)]
  by_cases h4 : n = c!"left"
  · subst h4; simp [enclosure, enclosures]
  rw [if_neg h4]
  by_cases h5 : n = c!"right"
  · subst h5; simp [enclosure, enclosures]
  rw [if_neg h5]
  by_cases h6 : n = c!"top"
  · subst h6; simp [enclosure, enclosures]
  rw [if_neg h6]
  by_cases h7 : n = c!"bottom"
  · subst h7; simp [enclosure, enclosures]
  rw [if_neg h7]
  by_cases h8 : n = c!"updiagonalstrike"
  · subst h8; simp [enclosure, enclosures]
  rw [if_neg h8]
  by_cases h9 : n = c!"downdiagonalstrike"
  · subst h9; simp [enclosure, enclosures]
  rw [if_neg h9]
  by_cases h10 : n = c!"updiagonalarrow"
  · subst h10; simp [enclosure, enclosures]
  rw [if_neg h10]
  by_cases h11 : n = c!"verticalstrike"
  · subst h11; simp [enclosure, enclosures]
  by_cases h11' : n = c!"horizontalstrike"
  · subst h11'; simp [enclosure, enclosures]
  rw [if_neg (by simp only [not_or]; exact ⟨h11, h11'⟩)]
  by_cases h12 : n = c!"madruwb"
  · subst h12; simp [enclosure, enclosures]
  rw [if_neg h12]
  by_cases h13 : n = c!"phasorangle"
  · subst h13; simp [enclosure, enclosures]
  rw [if_neg h13]
  have : enclosures.find? (fun p => decide (p.1 = n)) = none := by
    simp only [List.find?_eq_none, enclosures, List.mem_cons, List.not_mem_nil, or_false,
      decide_eq_true_eq]
    rintro p (rfl | rfl | rfl | rfl | rfl | rfl | rfl | rfl | rfl | rfl | rfl | rfl | rfl | rfl |
      rfl | rfl)
    · exact Ne.symm h1
    · exact Ne.symm h2
    · exact Ne.symm h3
    · exact Ne.symm h3'
    · exact Ne.symm h3''
    · exact Ne.symm h4
    · exact Ne.symm h5
    · exact Ne.symm h6
    · exact Ne.symm h7
    · exact Ne.symm h8
    · exact Ne.symm h9
    · exact Ne.symm h10
    · exact Ne.symm h11
    · exact Ne.symm h11'
    · exact Ne.symm h12
    · exact Ne.symm h13
  rw [enclosure, this]

theorem getD_attr (A : List (Str × Str)) (k : Str) :
    Attrs.getD (convertAttributes A) k [] = attr A k := attr_eq A k []

theorem enclosure_attr (A : List (Str × Str)) :
    enclosure (Attrs.getD (convertAttributes A) c!"notation" c!"longdiv") =
      enclosure (attr A c!"notation") := by
  rw [attr_eq, attr]
  cases attr? A c!"notation" with
  | some v => rfl
  | none => simp only [Option.getD_none]; decide

theorem getSeparator_eq (seps : Str) (i : Nat) :
    getSeparator (seps.map fun c => [c]) i = separator seps i := by
  unfold getSeparator separator
  by_cases h : i < seps.length
  · simp [h]
  · rw [dif_neg h]
    have : (seps.map fun c => [c])[i]? = none := by simp; omega
    rw [this]
    simp only
    rw [List.getLast?_eq_head?_reverse, ← List.map_reverse]
    cases seps.reverse <;> rfl

theorem joinManyFrom_eq (seps : List Str) : ∀ (ss : List Str) (i : Nat),
    joinManyFrom seps i ss = interleave (fun j => getSeparator seps (i + j)) ss := by
  intro ss
  induction ss with
  | nil => intro i; rfl
  | cons s ss ih =>
    intro i
    cases ss with
    | nil => simp [joinManyFrom, interleave]
    | cons t ss =>
      have e : (fun j => getSeparator seps (i + 1 + j)) = fun j => getSeparator seps (i + (j + 1)) := by
        funext j; congr 1; omega
      rw [joinManyFrom, interleave, ih, e]
      simp

theorem fence_eq (op close seps : Str) (ss : List Str) :
    vectorApply op close (seps.map fun c => [c]) ss = fence op close seps ss := by
  unfold vectorApply fence genericWrap wrap orElse
  rw [joinManyFrom_eq]
  have : (fun j => getSeparator (seps.map fun c => [c]) (0 + j)) = separator seps := by
    funext j; rw [Nat.zero_add, getSeparator_eq]
  rw [this]
  by_cases h1 : op = [] <;> by_cases h2 : close = [] <;> simp [h1, h2]

theorem matrix_eq (op close : Str) (ss : List Str) : matrixApply op close ss = matrix op close ss := by
  unfold matrixApply matrixCommand
  by_cases h1 : op = c!"(" ∧ close = c!")"
  · obtain ⟨rfl, rfl⟩ := h1; simp [matrix, environments, environment]
  simp only [if_neg h1]
  by_cases h2 : op = c!"[" ∧ close = c!"]"
  · obtain ⟨rfl, rfl⟩ := h2; simp [matrix, environments, environment]
  simp only [if_neg h2]
  by_cases h3 : op = c!"{" ∧ close = c!"}"
  · obtain ⟨rfl, rfl⟩ := h3; simp [matrix, environments, environment]
  simp only [if_neg h3]
  by_cases h4 : op = c!"|" ∧ close = c!"|"
  · obtain ⟨rfl, rfl⟩ := h4; simp [matrix, environments, environment]
  simp only [if_neg h4]
  by_cases h5 : op = c!"||" ∧ close = c!"||"
  · obtain ⟨rfl, rfl⟩ := h5; simp [matrix, environments, environment]
  simp only [if_neg h5]
  have : environments.find? (fun p => decide (p.1 = (op, close))) = none := by
    simp only [List.find?_eq_none, environments, List.mem_cons, List.not_mem_nil, or_false,
      decide_eq_true_eq]
    rintro p (rfl | rfl | rfl | rfl | rfl) <;>
      simp only [Prod.mk.injEq] <;> rintro ⟨rfl, rfl⟩
    · exact h1 ⟨rfl, rfl⟩
    · exact h2 ⟨rfl, rfl⟩
    · exact h3 ⟨rfl, rfl⟩
    · exact h4 ⟨rfl, rfl⟩
    · exact h5 ⟨rfl, rfl⟩
  rw [matrix, this]
  simp only
  by_cases h : op = close
  · subst h; simp [environment]
  · simp [h, genericWrap, wrap, environment]

theorem starM_some {β : Type} {p : Char → Bool} {k : Str → Option β} (hk : ∀ s, (k s).isSome) :
    ∀ s, (starM p s k).isSome := by
  intro s
  induction s with
  | nil => exact hk []
  | cons c s ih =>
    rw [starM]
    split
    · cases h : starM p s k with
      | none => rw [h] at ih; simp at ih
      | some x => rfl
    · exact hk _

theorem search_space (s : Str) : (Re.plus isSpace).search s = true ↔ ∃ c ∈ s, isSpace c = true := by
  induction s with
  | nil => simp [Re.search, Re.matchHere, Re.plus, Re.run]
  | cons c s ih =>
    rw [Re.search, Bool.or_eq_true, ih]
    have : ((Re.plus isSpace).matchHere false (c :: s)).isSome = isSpace c := by
      simp only [Re.plus, Re.matchHere, Re.run]
      by_cases h : isSpace c = true
      · rw [if_pos h, h]
        exact starM_some (fun _ => rfl) s
      · rw [if_neg h]; simp [h]
    rw [this]
    simp

theorem parensIfSpace_eq (s : Str) : wrapInParenthesisIfThereIsSpace s = parensIfSpace s := by
  unfold wrapInParenthesisIfThereIsSpace parensIfSpace
  by_cases h : ∃ c ∈ s, isSpace c = true
  · rw [if_pos h, if_pos ((search_space s).2 h)]; rfl
  · rw [if_neg h, if_neg (fun h' => h ((search_space s).1 h'))]

/-! ## Equations, one per construct -/

section Equations
variable (b : Bool) (A : List (Str × Str)) (cs : List Node)

theorem latexIn_row {tag : Str} (h : tag ∉ structured) : latexIn b (.elem tag A cs) =
    (do return join c!" " (← seqAll (outcomes b (kids cs)))) := by
  have hm : (tag == c!"mtable") = false := by
    simp only [beq_eq_false_iff_ne, ne_eq]
    rintro rfl
    exact h (by decide)
  rw [latexIn_elem, (classify_spacing_iff tag).2 h, hm, Bool.or_false]
  rfl

theorem latexIn_math : latexIn b (.elem c!"math" A cs) =
    (do return normalize (join c!" " (← seqAll (outcomes b (kids cs))))) := by
  rw [latexIn_elem]
  simp only [show classify c!"math" = .math by decide, show (c!"math" == c!"mtable") = false by decide,
    Bool.or_false, pnode]

theorem latexIn_mi : latexIn b (.elem c!"mi" A cs) =
    .ok (applyAll (fonts miVariants [] (attr A c!"mathvariant"))
      (characterApply (normalize (tokenData cs)))) := by
  rw [latexIn_elem]
  simp only [show classify c!"mi" = .mi by decide, pnode, miConvert_eq, normalize_strip, getD_attr]

theorem latexIn_mo : latexIn b (.elem c!"mo" A cs) = .ok (operate (normalize (tokenData cs))) := by
  rw [latexIn_elem]
  simp only [show classify c!"mo" = .mo by decide, pnode, moConvert_eq, normalize_strip]

theorem latexIn_mn : latexIn b (.elem c!"mn" A cs) = .ok (mnConvert (strip (tokenData cs))) := by
  rw [latexIn_elem]
  simp only [show classify c!"mn" = .mn by decide, pnode]

theorem latexIn_mtext : latexIn b (.elem c!"mtext" A cs) =
    .ok (mtextConvert (strip (tokenData cs)) (convertAttributes A)) := by
  rw [latexIn_elem]
  simp only [show classify c!"mtext" = .mtext by decide, pnode]

theorem latexIn_msqrt : latexIn b (.elem c!"msqrt" A cs) =
    (do return c!"\\sqrt" ++ braces (join c!" " (← seqAll (outcomes b (kids cs))))) := by
  rw [latexIn_elem]
  simp only [show classify c!"msqrt" = .msqrt by decide,
    show (c!"msqrt" == c!"mtable") = false by decide, Bool.or_false, pnode]
  rfl

theorem latexIn_merror : latexIn b (.elem c!"merror" A cs) =
    (do return c!"\\color{red}" ++ braces (join c!" " (← seqAll (outcomes b (kids cs))))) := by
  rw [latexIn_elem]
  simp only [show classify c!"merror" = .merror by decide,
    show (c!"merror" == c!"mtable") = false by decide, Bool.or_false, pnode]
  rfl

theorem latexIn_menclose : latexIn b (.elem c!"menclose" A cs) =
    (do return (enclosure (attr A c!"notation")).1 ++ join c!" " (← seqAll (outcomes b (kids cs))) ++
      (enclosure (attr A c!"notation")).2) := by
  rw [latexIn_elem]
  simp only [show classify c!"menclose" = .menclose by decide,
    show (c!"menclose" == c!"mtable") = false by decide, Bool.or_false, pnode, enclosure_eq,
    enclosure_attr]

theorem latexIn_mphantom : latexIn b (.elem c!"mphantom" A cs) = .ok [] := by
  rw [latexIn_elem]
  simp only [show classify c!"mphantom" = .void by decide, pnode]

theorem latexIn_mtr : latexIn b (.elem c!"mtr" A cs) =
    (do return join c!" & " (← seqAll (outcomes b (kids cs)))) := by
  rw [latexIn_elem]
  simp only [show classify c!"mtr" = .mtr by decide,
    show (c!"mtr" == c!"mtable") = false by decide, Bool.or_false, pnode]

theorem latexIn_mtable : latexIn b (.elem c!"mtable" A cs) =
    (do
      let ss ← seqAll (outcomes true (kids cs))
      if b = true ∨ attr A c!"innerTable" ≠ [] then
        return c!"\\begin{matrix}" ++ join c!" \\\\\n" ss ++ c!"\\end{matrix}"
      else return join c!" \\\\\n" ss) := by
  rw [latexIn_elem]
  simp only [show classify c!"mtable" = .mtable by decide,
    show (c!"mtable" == c!"mtable") = true by decide, Bool.or_true, pnode, innerTable, getD_attr]

theorem latexIn_mfenced [Decidable (HasTable cs)] : latexIn b (.elem c!"mfenced" A cs) =
    (do
      let ss ← seqAll (outcomes b (kids cs))
      if HasTable cs then return matrix (attr A c!"open") (attr A c!"close") ss
      else return fence (attr A c!"open") (attr A c!"close") (attr A c!"separators") ss) := by
  rw [latexIn_elem]
  simp only [show classify c!"mfenced" = .mfenced by decide,
    show (c!"mfenced" == c!"mtable") = false by decide, Bool.or_false, pnode, getD_attr,
    outcomes_map_fst, hasTable_iff, matrix_eq, fence_eq]

theorem latexIn_maction : latexIn b (.elem c!"maction" A cs) =
    if isToggle (attr A c!"actiontype") then
      (do return join c!" \\Longrightarrow " (← seqAll (outcomes b (kids cs))))
    else match kids cs with
      | [] => .error .indexError
      | n :: _ => latexIn b n := by
  rw [latexIn_elem]
  simp only [show classify c!"maction" = .maction by decide,
    show (c!"maction" == c!"mtable") = false by decide, Bool.or_false, pnode, getD_attr, isToggle]
  cases kids cs <;> rfl

theorem pbase_eq (x : Node) : pbase (elemOf x, latexIn b x) =
    (do return scriptBase x (← latexIn b x)) := by
  unfold pbase
  simp only [elemOf_children, List.length_map, scriptBase]
  cases latexIn b x with
  | error e => rfl
  | ok s =>
    by_cases h : (childElems x).length ≤ 1
    · have h2 : ¬ 2 ≤ (childElems x).length := by omega
      simp only [h2, if_false]
      show (if _ then _ else _) = _
      rw [if_pos h]; rfl
    · have h2 : 2 ≤ (childElems x).length := by omega
      simp only [h2, if_true]
      show (if _ then _ else _) = _
      rw [if_neg h, parensIfLong_eq]; rfl

theorem latexIn_msup : latexIn b (.elem c!"msup" A cs) =
    match kids cs with
    | [x, e] => (do
      let sx ← latexIn b x
      let se ← latexIn b e
      return scriptBase x sx ++ c!"^" ++ braces se)
    | ks => .error (.invalidChildren c!"msup" 2 ks.length c!"exactly") := by
  rw [latexIn_elem]
  simp only [show classify c!"msup" = .msup by decide,
    show (c!"msup" == c!"mtable") = false by decide, Bool.or_false, pnode]
  rcases kids cs with _ | ⟨x, _ | ⟨e, _ | ⟨y, ks⟩⟩⟩
  · rfl
  · rfl
  · simp only [outcomes, List.map_cons, List.map_nil, pbase_eq, bracketWrap_eq, bind_assoc, pure_bind]
  · simp [outcomes]

theorem latexIn_msub : latexIn b (.elem c!"msub" A cs) =
    match kids cs with
    | [x, e] => (do
      let sx ← latexIn b x
      let se ← latexIn b e
      return scriptBase x sx ++ c!"_" ++ braces se)
    | ks => .error (.invalidChildren c!"msub" 2 ks.length c!"exactly") := by
  rw [latexIn_elem]
  simp only [show classify c!"msub" = .msub by decide,
    show (c!"msub" == c!"mtable") = false by decide, Bool.or_false, pnode]
  rcases kids cs with _ | ⟨x, _ | ⟨e, _ | ⟨y, ks⟩⟩⟩
  · rfl
  · rfl
  · simp only [outcomes, List.map_cons, List.map_nil, pbase_eq, bracketWrap_eq, bind_assoc, pure_bind]
  · simp [outcomes]

theorem latexIn_msubsup : latexIn b (.elem c!"msubsup" A cs) =
    match kids cs with
    | [x, d, e] => (do
      let sx ← latexIn b x
      let sd ← latexIn b d
      let se ← latexIn b e
      return scriptBase x sx ++ c!"_" ++ braces sd ++ c!"^" ++ braces se)
    | ks => .error (.invalidChildren c!"msubsup" 3 ks.length c!"exactly") := by
  rw [latexIn_elem]
  simp only [show classify c!"msubsup" = .msubsup by decide,
    show (c!"msubsup" == c!"mtable") = false by decide, Bool.or_false, pnode]
  rcases kids cs with _ | ⟨x, _ | ⟨d, _ | ⟨e, _ | ⟨y, ks⟩⟩⟩⟩
  · rfl
  · rfl
  · rfl
  · simp only [outcomes, List.map_cons, List.map_nil, pbase_eq, bracketWrap_eq, bind_assoc, pure_bind]
  · simp [outcomes]

theorem latexIn_munderover : latexIn b (.elem c!"munderover" A cs) =
    match kids cs with
    | [x, d, e] => (do
      let sx ← latexIn b x
      let sd ← latexIn b d
      let se ← latexIn b e
      return sx ++ c!"_" ++ braces sd ++ c!"^" ++ braces se)
    | ks => .error (.invalidChildren c!"munderover" 3 ks.length c!"exactly") := by
  rw [latexIn_elem]
  simp only [show classify c!"munderover" = .munderover by decide,
    show (c!"munderover" == c!"mtable") = false by decide, Bool.or_false, pnode]
  rcases kids cs with _ | ⟨x, _ | ⟨d, _ | ⟨e, _ | ⟨y, ks⟩⟩⟩⟩
  · rfl
  · rfl
  · rfl
  · simp only [outcomes, List.map_cons, List.map_nil, braces, List.append_assoc, List.cons_append,
      List.nil_append]
  · simp [outcomes]

theorem latexIn_mfrac : latexIn b (.elem c!"mfrac" A cs) =
    match kids cs with
    | [x, e] => (do
      let sx ← latexIn b x
      let se ← latexIn b e
      if attr A c!"bevelled" ≠ [] then return parensIfLong sx ++ c!"/" ++ parensIfLong se
      else return c!"\\frac" ++ braces sx ++ braces se)
    | ks => .error (.invalidChildren c!"mfrac" 2 ks.length c!"exactly") := by
  rw [latexIn_elem]
  simp only [show classify c!"mfrac" = .mfrac by decide,
    show (c!"mfrac" == c!"mtable") = false by decide, Bool.or_false, pnode, getD_attr]
  rcases kids cs with _ | ⟨x, _ | ⟨e, _ | ⟨y, ks⟩⟩⟩
  · rfl
  · rfl
  · simp only [outcomes, List.map_cons, List.map_nil, braces, List.append_assoc, List.cons_append,
      List.nil_append, parensIfLong_eq]
  · simp [outcomes]

theorem latexIn_mroot : latexIn b (.elem c!"mroot" A cs) =
    match kids cs with
    | [x, e] => (do
      let sx ← latexIn b x
      let se ← latexIn b e
      return c!"\\sqrt[" ++ se ++ c!"]" ++ braces sx)
    | ks => .error (.invalidChildren c!"mroot" 2 ks.length c!"exactly") := by
  rw [latexIn_elem]
  simp only [show classify c!"mroot" = .mroot by decide,
    show (c!"mroot" == c!"mtable") = false by decide, Bool.or_false, pnode]
  rcases kids cs with _ | ⟨x, _ | ⟨e, _ | ⟨y, ks⟩⟩⟩
  · rfl
  · rfl
  · simp only [outcomes, List.map_cons, List.map_nil, braces, List.append_assoc, List.cons_append,
      List.nil_append]
  · simp [outcomes]

theorem latexIn_munder : latexIn b (.elem c!"munder" A cs) =
    match kids cs with
    | [x, e] => (do
      let sx ← latexIn b x
      let se ← latexIn b e
      return stacked c!"\\underset" sx se)
    | ks => .error (.invalidChildren c!"munder" 2 ks.length c!"exactly") := by
  rw [latexIn_elem]
  simp only [show classify c!"munder" = .underOver by decide,
    show (c!"munder" == c!"mtable") = false by decide, Bool.or_false, pnode, stacked_eq, search_under_munder]
  rcases kids cs with _ | ⟨x, _ | ⟨e, _ | ⟨y, ks⟩⟩⟩
  · rfl
  · rfl
  · rfl
  · simp [outcomes]

theorem latexIn_mover : latexIn b (.elem c!"mover" A cs) =
    match kids cs with
    | [x, e] => (do
      let sx ← latexIn b x
      let se ← latexIn b e
      return stacked c!"\\overset" sx se)
    | ks => .error (.invalidChildren c!"mover" 2 ks.length c!"exactly") := by
  rw [latexIn_elem]
  simp only [show classify c!"mover" = .underOver by decide,
    show (c!"mover" == c!"mtable") = false by decide, Bool.or_false, pnode, stacked_eq, search_under_mover]
  rcases kids cs with _ | ⟨x, _ | ⟨e, _ | ⟨y, ks⟩⟩⟩
  · rfl
  · rfl
  · rfl
  · simp [outcomes]

/-- The scripts of `mmultiscripts`. -/
def pairLatex (prefix_ : Str) (pair : Option (Node × Node)) : Res :=
  match pair with
  | none => .ok []
  | some (p, q) => do
    let sp ← latexIn b p
    let sq ← latexIn b q
    return prefix_ ++ braces sp ++ c!"^" ++ braces sq

theorem ppair_eq (prefix_ : Str) (p q : Node) :
    ppair prefix_ (elemOf p, latexIn b p) (elemOf q, latexIn b q) =
      pairLatex b prefix_ (some (p, q)) := by
  simp only [ppair, pairLatex, braces, List.append_assoc, List.cons_append, List.nil_append]

theorem pprescript_eq (ns : List Node) :
    pprescript (outcomes b ns) = pairLatex b c!"\\_" (prePair ns) := by
  rcases ns with _ | ⟨x, _ | ⟨c1, _ | ⟨c2, _ | ⟨c3, rest⟩⟩⟩⟩
  · rfl
  · rfl
  · rfl
  · rfl
  · simp only [outcomes, List.map_cons, pprescript, prePair, pIsPre, elemOf_name_pre]
    by_cases h : isPre c1 = true
    · rw [if_pos h, if_pos h, ppair_eq]
    · rw [if_neg h, if_neg h]
      rcases rest with _ | ⟨c4, _ | ⟨c5, rest⟩⟩
      · rfl
      · rfl
      · simp only [List.map_cons]
        by_cases h : isPre c3 = true
        · rw [if_pos h, if_pos h, ppair_eq]
        · rw [if_neg h, if_neg h]; rfl

theorem ppostscript_eq (ns : List Node) :
    ppostscript (outcomes b ns) = pairLatex b c!"_" (postPair ns) := by
  rcases ns with _ | ⟨x, _ | ⟨c1, _ | ⟨c2, rest⟩⟩⟩
  · rfl
  · rfl
  · rfl
  · simp only [outcomes, List.map_cons, ppostscript, postPair, pIsPre, elemOf_name_pre]
    by_cases h : isPre c1 = true
    · rw [if_pos h, if_pos h]; rfl
    · rw [if_neg h, if_neg h, ppair_eq]

theorem latexIn_mmultiscripts : latexIn b (.elem c!"mmultiscripts" A cs) =
    match kids cs with
    | x :: y :: z :: ks => (do
      let sx ← latexIn b x
      let pre ← pairLatex b c!"\\_" (prePair (x :: y :: z :: ks))
      let post ← pairLatex b c!"_" (postPair (x :: y :: z :: ks))
      return pre ++ parensIfSpace sx ++ post)
    | ks => .error (.invalidChildren c!"mmultiscripts" 3 ks.length c!"at least") := by
  rw [latexIn_elem]
  simp only [show classify c!"mmultiscripts" = .mmultiscripts by decide,
    show (c!"mmultiscripts" == c!"mtable") = false by decide, Bool.or_false, pnode,
    pprescript_eq, ppostscript_eq, parensIfSpace_eq]
  rcases kids cs with _ | ⟨x, _ | ⟨y, _ | ⟨z, ks⟩⟩⟩
  · rfl
  · rfl
  · rfl
  · rfl

end Equations

theorem seq_ok {b : Bool} {ns : List Node} {ss : List Str} (hl : ns.length = ss.length)
    (h : ∀ p ∈ ns.zip ss, latexIn b p.1 = .ok p.2) : seqAll (outcomes b ns) = .ok ss :=
  (seqAll_outcomes b ns ss).2 ⟨hl, h⟩

theorem pairLatex_ok {b : Bool} {pre : Str} {pair : Option (Node × Node)} {s1 s2 : Str}
    (h1 : ∀ p q, pair = some (p, q) → latexIn b p = .ok s1)
    (h2 : ∀ p q, pair = some (p, q) → latexIn b q = .ok s2) :
    pairLatex b pre pair = .ok (scripts pre pair s1 s2) := by
  rcases pair with _ | ⟨p, q⟩
  · rfl
  · rw [pairLatex, h1 p q rfl, h2 p q rfl]
    rfl

/-- Everything derivable is what the library computes. -/
theorem Spec.Renders.sound {b : Bool} {n : Node} {s : Str} (h : Renders b n s) :
    latexIn b n = .ok s := by
  induction h with
  | row ht hl _ ih => rw [latexIn_row _ _ _ ht, seq_ok hl ih]; rfl
  | math hl _ ih => rw [latexIn_math, seq_ok hl ih]; rfl
  | mi h => rw [latexIn_mi, (miSymbol_iff _ _).1 h]
  | mo h => rw [latexIn_mo, (moSymbol_iff _ _).1 h]
  | mn h => rw [latexIn_mn, (mnConvert_iff _ _).2 (by rw [normalize_strip]; exact h)]
  | mtext h => rw [latexIn_mtext, (mtextConvert_iff _ _ _).2 (by rw [getD_attr]; exact h)]
  | msqrt hl _ ih => rw [latexIn_msqrt, seq_ok hl ih]; rfl
  | merror hl _ ih => rw [latexIn_merror, seq_ok hl ih]; rfl
  | menclose hl _ ih => rw [latexIn_menclose, seq_ok hl ih]; rfl
  | mphantom => rw [latexIn_mphantom]
  | mfrac hk ha _ _ h1 h2 =>
    rw [latexIn_mfrac, hk]; simp only [h1, h2, ha, ne_eq, not_true, if_false]; rfl
  | bevelled hk ha _ _ h1 h2 =>
    rw [latexIn_mfrac, hk]; simp only [h1, h2, ha, ne_eq, not_false_eq_true, if_true]; rfl
  | mroot hk _ _ h1 h2 => rw [latexIn_mroot, hk]; simp only [h1, h2]; rfl
  | msup hk _ _ h1 h2 => rw [latexIn_msup, hk]; simp only [h1, h2]; rfl
  | msub hk _ _ h1 h2 => rw [latexIn_msub, hk]; simp only [h1, h2]; rfl
  | msubsup hk _ _ _ h1 h2 h3 => rw [latexIn_msubsup, hk]; simp only [h1, h2, h3]; rfl
  | munder hk _ _ h1 h2 => rw [latexIn_munder, hk]; simp only [h1, h2]; rfl
  | mover hk _ _ h1 h2 => rw [latexIn_mover, hk]; simp only [h1, h2]; rfl
  | munderover hk _ _ _ h1 h2 h3 => rw [latexIn_munderover, hk]; simp only [h1, h2, h3]; rfl
  | @mmultiscripts b A cs x ks sx s1 s2 s3 s4 hk hlen _ _ _ _ _ h0 h1 h2 h3 h4 =>
    rw [latexIn_mmultiscripts]
    rw [hk] at h1 h2 h3 h4 ⊢
    rcases ks with _ | ⟨y, _ | ⟨z, ks⟩⟩
    · simp at hlen
    · simp at hlen
    · simp only [h0, pairLatex_ok h1 h2, pairLatex_ok h3 h4]; rfl
  | toggle ht hl _ ih => rw [latexIn_maction, if_pos ht, seq_ok hl ih]; rfl
  | maction ht hk _ ih => rw [latexIn_maction, if_neg ht, hk]; exact ih
  | @mfenced b A cs ss ht hl _ ih =>
    haveI := Classical.propDecidable (HasTable cs)
    rw [latexIn_mfenced, seq_ok hl ih]
    simp only [ht, if_false]; rfl
  | @matrix b A cs ss ht hl _ ih =>
    haveI := Classical.propDecidable (HasTable cs)
    rw [latexIn_mfenced, seq_ok hl ih]
    simp only [ht, if_true]; rfl
  | mtable ha hl _ ih => rw [latexIn_mtable, seq_ok hl ih]; simp only [ha]; rfl
  | innerTable ha hl _ ih => rw [latexIn_mtable, seq_ok hl ih]; simp only [ha, if_true]; rfl
  | mtr hl _ ih => rw [latexIn_mtr, seq_ok hl ih]; rfl

theorem pairLatex_inv {b : Bool} {pre : Str} {pair : Option (Node × Node)} {s : Str}
    (h : pairLatex b pre pair = .ok s) : ∃ s1 s2, s = scripts pre pair s1 s2 ∧
      (∀ p q, pair = some (p, q) → latexIn b p = .ok s1) ∧
      (∀ p q, pair = some (p, q) → latexIn b q = .ok s2) := by
  rcases pair with _ | ⟨p, q⟩
  · rw [pairLatex] at h
    simp only [Except.ok.injEq] at h
    exact ⟨[], [], by rw [← h]; rfl, by simp, by simp⟩
  · rw [pairLatex] at h
    simp only [bind_ok_iff, pure_ok_iff] at h
    obtain ⟨s1, h1, s2, h2, h3⟩ := h
    refine ⟨s1, s2, by rw [← h3]; rfl, ?_, ?_⟩
    · rintro _ _ ⟨⟩; exact h1
    · rintro _ _ ⟨⟩; exact h2

theorem prePair_mem {ns : List Node} {p q : Node} (h : prePair ns = some (p, q)) :
    p ∈ ns ∧ q ∈ ns := by
  rcases ns with _ | ⟨x, _ | ⟨c1, _ | ⟨c2, _ | ⟨c3, rest⟩⟩⟩⟩
  · simp [prePair] at h
  · simp [prePair] at h
  · simp [prePair] at h
  · simp [prePair] at h
  · simp only [prePair] at h
    split at h
    · simp only [Option.some.injEq, Prod.mk.injEq] at h
      obtain ⟨rfl, rfl⟩ := h
      simp
    · rcases rest with _ | ⟨c4, _ | ⟨c5, rest⟩⟩
      · simp at h
      · simp at h
      · simp only at h
        split at h
        · simp only [Option.some.injEq, Prod.mk.injEq] at h
          obtain ⟨rfl, rfl⟩ := h
          simp
        · simp at h

theorem postPair_mem {ns : List Node} {p q : Node} (h : postPair ns = some (p, q)) :
    p ∈ ns ∧ q ∈ ns := by
  rcases ns with _ | ⟨x, _ | ⟨c1, _ | ⟨c2, rest⟩⟩⟩
  · simp [postPair] at h
  · simp [postPair] at h
  · simp [postPair] at h
  · simp only [postPair] at h
    split at h
    · simp at h
    · simp only [Option.some.injEq, Prod.mk.injEq] at h
      obtain ⟨rfl, rfl⟩ := h
      simp

/-- Everything the library computes is derivable. -/
theorem renders_complete (n : Node) : n.isElem = true → ∀ b s, latexIn b n = .ok s →
    Renders b n s := by
  induction n using Node.induct with
  | other n h => intro h'; rw [h] at h'; simp at h'
  | elem tag A cs ih =>
    intro _ b s h
    have ihk : ∀ n ∈ kids cs, ∀ b s, latexIn b n = .ok s → Renders b n s :=
      fun n hn => ih n (mem_kids.1 hn).1 (mem_kids.1 hn).2
    have ihs : ∀ {b : Bool} {ss : List Str}, seqAll (outcomes b (kids cs)) = .ok ss →
        (kids cs).length = ss.length ∧ ∀ p ∈ (kids cs).zip ss, Renders b p.1 p.2 := by
      intro b ss hs
      obtain ⟨h1, h2⟩ := (seqAll_outcomes b _ _).1 hs
      exact ⟨h1, fun p hp => ihk p.1 (List.of_mem_zip hp).1 _ _ (h2 p hp)⟩
    clear ih
    by_cases hst : tag ∈ structured
    · simp only [structured, List.mem_cons, List.not_mem_nil, or_false] at hst
      rcases hst with rfl | rfl | rfl | rfl | rfl | rfl | rfl | rfl | rfl | rfl | rfl | rfl | rfl |
        rfl | rfl | rfl | rfl | rfl | rfl | rfl | rfl | rfl
      · rw [latexIn_math, return_ok_iff] at h
        obtain ⟨ss, h, rfl⟩ := h
        exact .math (ihs h).1 (ihs h).2
      · rw [latexIn_mi, Except.ok.injEq] at h
        subst h
        exact .mi ((miSymbol_iff _ _).2 rfl)
      · rw [latexIn_mo, Except.ok.injEq] at h
        exact .mo ((moSymbol_iff _ _).2 h)
      · rw [latexIn_mn, Except.ok.injEq] at h
        exact .mn (by have := (mnConvert_iff _ _).1 h; rwa [normalize_strip] at this)
      · rw [latexIn_msqrt, return_ok_iff] at h
        obtain ⟨ss, h, rfl⟩ := h
        exact .msqrt (ihs h).1 (ihs h).2
      · haveI := Classical.propDecidable (HasTable cs)
        rw [latexIn_mfenced, bind_ok_iff] at h
        obtain ⟨ss, h, h'⟩ := h
        by_cases ht : HasTable cs
        · rw [if_pos ht, pure_ok_iff] at h'
          subst h'
          exact .matrix ht (ihs h).1 (ihs h).2
        · rw [if_neg ht, pure_ok_iff] at h'
          subst h'
          exact .mfenced ht (ihs h).1 (ihs h).2
      · rw [latexIn_mfrac] at h
        split at h
        · rename_i x e hk
          rw [hk] at ihk
          simp only [bind_ok_iff] at h
          obtain ⟨sx, h1, se, h2, h3⟩ := h
          by_cases ha : attr A c!"bevelled" = []
          · rw [if_neg (Decidable.not_not.2 ha), pure_ok_iff] at h3
            subst h3
            exact .mfrac hk ha (ihk x (by simp) _ _ h1) (ihk e (by simp) _ _ h2)
          · rw [if_pos ha, pure_ok_iff] at h3
            subst h3
            exact .bevelled hk ha (ihk x (by simp) _ _ h1) (ihk e (by simp) _ _ h2)
        · simp at h
      · rw [latexIn_mroot] at h
        split at h
        · rename_i x e hk
          rw [hk] at ihk
          simp only [bind_ok_iff, pure_ok_iff] at h
          obtain ⟨sx, h1, se, h2, rfl⟩ := h
          exact .mroot hk (ihk x (by simp) _ _ h1) (ihk e (by simp) _ _ h2)
        · simp at h
      · rw [latexIn_maction] at h
        by_cases ht : isToggle (attr A c!"actiontype")
        · rw [if_pos ht, return_ok_iff] at h
          obtain ⟨ss, h, rfl⟩ := h
          exact .toggle ht (ihs h).1 (ihs h).2
        · rw [if_neg ht] at h
          split at h
          · simp at h
          · rename_i x ks hk
            exact .maction ht hk (ihk x (by rw [hk]; simp) _ _ h)
      · rw [latexIn_menclose, return_ok_iff] at h
        obtain ⟨ss, h, rfl⟩ := h
        exact .menclose (ihs h).1 (ihs h).2
      · rw [latexIn_merror, return_ok_iff] at h
        obtain ⟨ss, h, rfl⟩ := h
        exact .merror (ihs h).1 (ihs h).2
      · rw [latexIn_mphantom, Except.ok.injEq] at h
        subst h
        exact .mphantom
      · rw [latexIn_msup] at h
        split at h
        · rename_i x e hk
          rw [hk] at ihk
          simp only [bind_ok_iff, pure_ok_iff] at h
          obtain ⟨sx, h1, se, h2, rfl⟩ := h
          exact .msup hk (ihk x (by simp) _ _ h1) (ihk e (by simp) _ _ h2)
        · simp at h
      · rw [latexIn_msub] at h
        split at h
        · rename_i x e hk
          rw [hk] at ihk
          simp only [bind_ok_iff, pure_ok_iff] at h
          obtain ⟨sx, h1, se, h2, rfl⟩ := h
          exact .msub hk (ihk x (by simp) _ _ h1) (ihk e (by simp) _ _ h2)
        · simp at h
      · rw [latexIn_msubsup] at h
        split at h
        · rename_i x d e hk
          rw [hk] at ihk
          simp only [bind_ok_iff, pure_ok_iff] at h
          obtain ⟨sx, h1, sd, h2, se, h3, rfl⟩ := h
          exact .msubsup hk (ihk x (by simp) _ _ h1) (ihk d (by simp) _ _ h2) (ihk e (by simp) _ _ h3)
        · simp at h
      · rw [latexIn_mmultiscripts] at h
        split at h
        · rename_i x y z ks hk
          simp only [bind_ok_iff, pure_ok_iff] at h
          obtain ⟨sx, h0, sp, h1, sq, h2, rfl⟩ := h
          obtain ⟨s1, s2, rfl, h3, h4⟩ := pairLatex_inv h1
          obtain ⟨s3, s4, rfl, h5, h6⟩ := pairLatex_inv h2
          rw [← hk] at h3 h4 h5 h6 ⊢
          exact .mmultiscripts hk (by simp) (ihk x (by rw [hk]; simp) _ _ h0)
            (fun p q e => ihk p (prePair_mem e).1 _ _ (h3 p q e))
            (fun p q e => ihk q (prePair_mem e).2 _ _ (h4 p q e))
            (fun p q e => ihk p (postPair_mem e).1 _ _ (h5 p q e))
            (fun p q e => ihk q (postPair_mem e).2 _ _ (h6 p q e))
        · simp at h
      · rw [latexIn_mtext, Except.ok.injEq] at h
        exact .mtext (by have := (mtextConvert_iff _ _ _).1 h; rwa [getD_attr] at this)
      · rw [latexIn_munderover] at h
        split at h
        · rename_i x d e hk
          rw [hk] at ihk
          simp only [bind_ok_iff, pure_ok_iff] at h
          obtain ⟨sx, h1, sd, h2, se, h3, rfl⟩ := h
          exact .munderover hk (ihk x (by simp) _ _ h1) (ihk d (by simp) _ _ h2)
            (ihk e (by simp) _ _ h3)
        · simp at h
      · rw [latexIn_mtable, bind_ok_iff] at h
        obtain ⟨ss, h, h'⟩ := h
        by_cases hb : b = true ∨ attr A c!"innerTable" ≠ []
        · rw [if_pos hb, pure_ok_iff] at h'
          subst h'
          exact .innerTable hb (ihs h).1 (ihs h).2
        · rw [if_neg hb, pure_ok_iff] at h'
          subst h'
          simp only [not_or, Bool.not_eq_true, ne_eq, Decidable.not_not] at hb
          obtain ⟨rfl, hb⟩ := hb
          exact .mtable hb (ihs h).1 (ihs h).2
      · rw [latexIn_mtr, return_ok_iff] at h
        obtain ⟨ss, h, rfl⟩ := h
        exact .mtr (ihs h).1 (ihs h).2
      · rw [latexIn_mover] at h
        split at h
        · rename_i x e hk
          rw [hk] at ihk
          simp only [bind_ok_iff, pure_ok_iff] at h
          obtain ⟨sx, h1, se, h2, rfl⟩ := h
          exact .mover hk (ihk x (by simp) _ _ h1) (ihk e (by simp) _ _ h2)
        · simp at h
      · rw [latexIn_munder] at h
        split at h
        · rename_i x e hk
          rw [hk] at ihk
          simp only [bind_ok_iff, pure_ok_iff] at h
          obtain ⟨sx, h1, se, h2, rfl⟩ := h
          exact .munder hk (ihk x (by simp) _ _ h1) (ihk e (by simp) _ _ h2)
        · simp at h
    · rw [latexIn_row _ _ _ hst, return_ok_iff] at h
      obtain ⟨ss, h, rfl⟩ := h
      exact .row hst (ihs h).1 (ihs h).2

theorem renders_iff {n : Node} (hn : n.isElem = true) (b : Bool) (s : Str) :
    Renders b n s ↔ latexIn b n = .ok s :=
  ⟨fun h => h.sound, renders_complete n hn b s⟩

end Verif
