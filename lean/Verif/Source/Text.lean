import Verif.Source.Tokens

/-!
# `MText`
-/

namespace Verif.Src

attribute [local irreducible] vowelsWithAccents accentToLtxCmd specialFontChars allMathSymbolsByChar
  allMathSymbolsByGlyph mathNumberByGlyph allMathOperatorsByChar allMathOperatorsByGlyph

variable {env : Env}

/-- An instance of `Char`. -/
abbrev charObj (s : Str) (b : Bool) : Obj :=
  .inst .Char [(.value, .str s), (.is_alphanumeric, .bool b)]

/-! ## The characters -/

/-- The pattern of usecases.py 663. -/
def alnumPattern : Pattern :=
  ⟨true, .seq (.cls (inClass false [('0', '9'), ('A', 'Z'), ('a', 'z')])) .eps, true⟩

theorem compile_alnum1 (w : Char → Bool) :
    compilePattern w false false c!"^[a-zA-Z0-9]$" = some alnumPattern := rfl

theorem inClass_alnum1 (c : Char) :
    inClass false [('0', '9'), ('A', 'Z'), ('a', 'z')] c = isAsciiAlnum c := by
  unfold inClass isAsciiAlnum
  rw [Bool.eq_iff_iff]
  simp
  omega

theorem matches_alnum1 (c : Char) : Pattern.matches alnumPattern [c] = isAsciiAlnum c := by
  simp only [alnumPattern, Pattern.matches, Re.run, inClass_alnum1]
  cases isAsciiAlnum c <;> rfl

/-- usecases.py 662–666: the element of the comprehension. -/
abbrev charExpr : Expr :=
  .ite (.or (.call (.attr (.name .re) .«match») [.str c!"^[a-zA-Z0-9]$", .name .«char»] [] [])
    (.cmp .eq (.name .«char») (.str c!" "))) (.call (.name .Char) [.name .«char», .bool true] [] [])
    (.call (.name .Char) [.name .«char», .bool false] [] [])

theorem run_char (n : Nat) (a d : Nat) (v : Str) (c : Char) (h : Store) :
    eval ⟨env, call env (n + 1), n + 1⟩ charExpr
      [(.«char», .str [c]), (.value, .str v), (.attributes, .obj d), (.self, .obj a)] h =
      .ok (.obj h.length) (h ++ [charObj [c] (isTextChar c)]) := by
  unfold isTextChar
  cases h1 : isAsciiAlnum c with
  | true => sym [Char___init__] [compile_alnum1] [matches_alnum1, h1]; rfl
  | false =>
    by_cases h2 : c = ' '
    · subst h2
      sym [Char___init__] [compile_alnum1] [matches_alnum1, h1]; rfl
    · sym [Char___init__] [compile_alnum1] [matches_alnum1, h1, h2]
      simp [h2]

/-- The addresses from `b` on. -/
def addrs (b : Nat) : Nat → List Val
  | 0 => []
  | n + 1 => .obj b :: addrs (b + 1) n

theorem run_chars (n : Nat) (a d : Nat) (v : Str) (cs : Str) (h : Store) :
    compRes (holds ⟨env, call env (n + 1), n + 1⟩ []) (eval ⟨env, call env (n + 1), n + 1⟩ charExpr)
      .«char» [(.value, .str v), (.attributes, .obj d), (.self, .obj a)]
      (cs.map fun c => .str [c]) h =
      .ok (addrs h.length cs.length) (h ++ cs.map fun c => charObj [c] (isTextChar c)) := by
  induction cs generalizing h with
  | nil => simp [compRes, addrs]
  | cons c cs ih =>
    rw [List.map_cons, compRes, holds, Res.bind_ok, if_pos rfl, run_char, Res.bind_ok, ih,
      Res.bind_ok]
    simp [addrs]

/-! ## Merging -/

/-- usecases.py 669–676: the body of the loop. -/
abbrev mergeBody : List Stmt :=
  [.ite (.attr (.name .«char») .is_alphanumeric)
    [.assign .last_char (.ite (.name .merged_chars) (.item (.name .merged_chars) (.int (-1))) (.none)),
     .ite (.and (.name .last_char) (.attr (.name .last_char) .is_alphanumeric))
     [.setAttr (.name .last_char) .value (.add (.attr (.name .last_char) .value) (.attr (.name .«char») .value)),
      .continue]
     []]
    [],
    .expr (.call (.attr (.name .merged_chars) .append) [.name .«char»] [] [])]

section
variable {n x m : Nat} {s : Str} {l : Locals} {S : Store}
  (hl : look .merged_chars l = some (.obj m))
include hl

theorem merge_other {vs : List Val} (hx : S[x]? = some (charObj s false))
    (hm : S[m]? = some (.list vs)) :
    execs ⟨env, call env n, n⟩ mergeBody ((.«char», .obj x) :: l) S =
      .next ((.«char», .obj x) :: l) (S.set m (.list (vs ++ [.obj x]))) := by
  sym [] [hx, hm, hl]

theorem merge_first (hx : S[x]? = some (charObj s true)) (hm : S[m]? = some (.list [])) :
    execs ⟨env, call env n, n⟩ mergeBody ((.«char», .obj x) :: l) S =
      .next ((.last_char, .none) :: (.«char», .obj x) :: l) (S.set m (.list [.obj x])) := by
  sym [] [hx, hm, hl]; rfl

theorem merge_new {vs : List Val} {y : Nat} {t : Str} (hx : S[x]? = some (charObj s true))
    (hy : S[y]? = some (charObj t false)) (hm : S[m]? = some (.list (vs ++ [.obj y]))) :
    execs ⟨env, call env n, n⟩ mergeBody ((.«char», .obj x) :: l) S =
      .next ((.last_char, .obj y) :: (.«char», .obj x) :: l)
        (S.set m (.list (vs ++ [.obj y] ++ [.obj x]))) := by
  have hi : pyIndex (vs ++ [Val.obj y]) (-1) = some (.obj y) := by simp [pyIndex]
  have he : (vs ++ [Val.obj y]).isEmpty = false := by cases vs <;> rfl
  sym [] [hx, hm, hl, hy, hi] [he]

theorem merge_old {vs : List Val} {y : Nat} {t : Str} (hx : S[x]? = some (charObj s true))
    (hy : S[y]? = some (charObj t true)) (hm : S[m]? = some (.list (vs ++ [.obj y]))) :
    execs ⟨env, call env n, n⟩ mergeBody ((.«char», .obj x) :: l) S =
      .cont ((.last_char, .obj y) :: (.«char», .obj x) :: l) (S.set y (charObj (t ++ s) true)) := by
  have hi : pyIndex (vs ++ [Val.obj y]) (-1) = some (.obj y) := by simp [pyIndex]
  have he : (vs ++ [Val.obj y]).isEmpty = false := by cases vs <;> rfl
  sym [] [hx, hm, hl, hy, hi] [he]
end

/-- The characters at the given addresses. -/
def CharsAt (S : Store) : List Nat → List (Str × Bool) → Prop
  | [], [] => True
  | a :: as, p :: ps => S[a]? = some (charObj p.1 p.2) ∧ CharsAt S as ps
  | _, _ => False

theorem CharsAt.set {S : Store} {i : Nat} {o : Obj} : ∀ {as : List Nat} {ps : List (Str × Bool)},
    CharsAt S as ps → i ∉ as → CharsAt (S.set i o) as ps
  | [], [], _, _ => trivial
  | a :: as, p :: ps, h, hi => by
    simp only [List.mem_cons, not_or] at hi
    refine ⟨?_, h.2.set hi.2⟩
    rw [List.getElem?_set_ne hi.1]
    exact h.1
  | [], _ :: _, h, _ => h.elim
  | _ :: _, [], h, _ => h.elim

theorem CharsAt.append {S T : Store} : ∀ {as : List Nat} {ps : List (Str × Bool)},
    CharsAt S as ps → CharsAt (S ++ T) as ps
  | [], [], _ => trivial
  | _ :: _, _ :: _, h => ⟨look_old T h.1, h.2.append⟩
  | [], _ :: _, h => h.elim
  | _ :: _, [], h => h.elim

theorem CharsAt.snoc {S : Store} {a : Nat} {p : Str × Bool} (h0 : S[a]? = some (charObj p.1 p.2)) :
    ∀ {as : List Nat} {ps : List (Str × Bool)},
    CharsAt S as ps → CharsAt S (as ++ [a]) (ps ++ [p])
  | [], [], _ => ⟨h0, trivial⟩
  | _ :: _, _ :: _, h => ⟨h.1, h.2.snoc h0⟩
  | [], _ :: _, h => h.elim
  | _ :: _, [], h => h.elim

theorem CharsAt.reverse {S : Store} : ∀ {as : List Nat} {ps : List (Str × Bool)},
    CharsAt S as ps → CharsAt S as.reverse ps.reverse
  | [], [], _ => trivial
  | _ :: _, _ :: _, h => by
    rw [List.reverse_cons, List.reverse_cons]
    exact h.2.reverse.snoc h.1
  | [], _ :: _, h => h.elim
  | _ :: _, [], h => h.elim

theorem get_lt {S : Store} {a : Nat} {o : Obj} (h : S[a]? = some o) : a < S.length := by
  rcases Nat.lt_or_ge a S.length with q | q
  · exact q
  · rw [List.getElem?_eq_none q] at h; cases h

/-- The merging loop. -/
theorem run_merge (b m : Nat) (cs : Str) : ∀ (x : Nat) (S : Store) (l : Locals) (mem : List Nat)
    (merged : List (Str × Bool)),
    look .merged_chars l = some (.obj m) →
    S[m]? = some (.list (mem.reverse.map .obj)) →
    CharsAt S mem merged →
    (∀ i c, cs[i]? = some c → S[x + i]? = some (charObj [c] (isTextChar c))) →
    (∀ a ∈ mem, b ≤ a ∧ a < x) → mem.Pairwise (· > ·) → b ≤ x → x + cs.length ≤ m →
    ∃ (mem' : List Nat) (S' : Store) (l' : Locals),
      (∀ n i, forOut (fun _ v l => (.«char», v) :: l) (execs ⟨env, call env n, n⟩ mergeBody) i
        (addrs x cs.length) l S = .next l' S') ∧
      S'[m]? = some (.list (mem'.reverse.map .obj)) ∧
      CharsAt S' mem' (cs.foldl mergeStep merged) ∧
      (∀ y, y ≠ .«char» → y ≠ .last_char → look y l' = look y l) ∧
      S'.length = S.length ∧ ∀ a, a < b → S'[a]? = S[a]? := by
  induction cs with
  | nil =>
    intro x S l mem merged _ hm hc _ _ _ _ _
    exact ⟨mem, S, l, fun _ _ => rfl, hm, hc, fun _ _ _ => rfl, rfl, fun _ _ => rfl⟩
  | cons c cs ih =>
    intro x S l mem merged hl hm hc hr hmem hpw hb hx
    have hx0 := hr 0 c rfl
    rw [Nat.add_zero] at hx0
    rw [List.length_cons] at hx
    have hml := get_lt hm
    -- a new entry
    have fresh : ∀ (l1 : Locals) (hs : mergeStep merged c = ([c], isTextChar c) :: merged)
        (_ : ∀ n, execs ⟨env, call env n, n⟩ mergeBody ((.«char», .obj x) :: l) S =
          .next l1 (S.set m (.list (mem.reverse.map .obj ++ [.obj x]))))
        (_ : ∀ y, y ≠ .«char» → y ≠ .last_char → look y l1 = look y l),
        ∃ (mem' : List Nat) (S' : Store) (l' : Locals),
          (∀ n i, forOut (fun _ v l => (.«char», v) :: l) (execs ⟨env, call env n, n⟩ mergeBody) i
            (addrs x (c :: cs).length) l S = .next l' S') ∧
          S'[m]? = some (.list (mem'.reverse.map .obj)) ∧
          CharsAt S' mem' ((c :: cs).foldl mergeStep merged) ∧
          (∀ y, y ≠ .«char» → y ≠ .last_char → look y l' = look y l) ∧
          S'.length = S.length ∧ ∀ a, a < b → S'[a]? = S[a]? := by
      intro l1 hs he hl1
      have hxm : x ∉ mem := fun h => by have := (hmem x h).2; omega
      have hmm : m ∉ mem := fun h => by have := (hmem m h).2; omega
      obtain ⟨mem', S', l', h1, h2, h3, h4, h5, h6⟩ :=
        ih (x + 1) (S.set m (.list (mem.reverse.map .obj ++ [.obj x]))) l1 (x :: mem)
          (([c], isTextChar c) :: merged)
          (by rw [hl1 _ (by decide) (by decide), hl])
          (by rw [List.getElem?_set_self hml]; simp)
          ⟨by rw [List.getElem?_set_ne (by omega)]; exact hx0, hc.set hmm⟩
          (fun i d hd => by
            have := hr (i + 1) d (by simpa using hd)
            have hi : i < cs.length := by
              rcases Nat.lt_or_ge i cs.length with q | q
              · exact q
              · rw [List.getElem?_eq_none q] at hd; cases hd
            rw [List.getElem?_set_ne (by omega), show x + 1 + i = x + (i + 1) by omega]
            exact this)
          (fun a ha => by
            rcases List.mem_cons.1 ha with rfl | ha
            · omega
            · have := hmem a ha; omega)
          (List.pairwise_cons.2 ⟨fun a ha => by have := (hmem a ha).2; omega, hpw⟩)
          (by omega) (by omega)
      refine ⟨mem', S', l', fun n i => ?_, h2, ?_, fun y hy hy' => ?_, ?_, fun a ha => ?_⟩
      · rw [List.length_cons, addrs, forOut, he]
        exact h1 n (i + 1)
      · rw [List.foldl_cons, hs]; exact h3
      · rw [h4 y hy hy', hl1 y hy hy']
      · rw [h5, List.length_set]
      · rw [h6 a ha, List.getElem?_set_ne (by omega)]
    by_cases ht : isTextChar c = true
    · rw [ht] at hx0
      cases mem with
      | nil =>
        cases merged with
        | cons _ _ => exact hc.elim
        | nil =>
          exact fresh ((.last_char, .none) :: (.«char», .obj x) :: l) (by simp [mergeStep, ht])
            (fun n => merge_first hl hx0 hm)
            (fun y hy hy' => by simp [look, hy, hy'])
      | cons y mem =>
        cases merged with
        | nil => exact hc.elim
        | cons p merged =>
          obtain ⟨v, bb⟩ := p
          rw [List.reverse_cons, List.map_append] at hm
          cases bb with
          | false =>
            refine fresh ((.last_char, .obj y) :: (.«char», .obj x) :: l) (by simp [mergeStep, ht])
              (fun n => ?_) (fun y hy hy' => by simp [look, hy, hy'])
            rw [List.reverse_cons, List.map_append]
            exact merge_new hl hx0 hc.1 hm
          | true =>
            have hy := hmem y List.mem_cons_self
            have hyl := get_lt hc.1
            have hpw' := List.pairwise_cons.1 hpw
            have hym : y ∉ mem := fun h => by have := hpw'.1 y h; omega
            obtain ⟨mem', S', l', h1, h2, h3, h4, h5, h6⟩ :=
              ih (x + 1) (S.set y (charObj (v ++ [c]) true))
                ((.last_char, .obj y) :: (.«char», .obj x) :: l) (y :: mem)
                ((v ++ [c], true) :: merged)
                (by simp [look, hl])
                (by rw [List.getElem?_set_ne (by omega), hm]; simp)
                ⟨by rw [List.getElem?_set_self hyl], hc.2.set hym⟩
                (fun i d hd => by
                  have := hr (i + 1) d (by simpa using hd)
                  rw [List.getElem?_set_ne (by omega), show x + 1 + i = x + (i + 1) by omega]
                  exact this)
                (fun a ha => by have := hmem a ha; omega)
                hpw (by omega) (by omega)
            refine ⟨mem', S', l', fun n i => ?_, h2, ?_, fun z hz hz' => ?_, ?_, fun a ha => ?_⟩
            · rw [List.length_cons, addrs, forOut, merge_old hl hx0 hc.1 hm]
              exact h1 n (i + 1)
            · rw [List.foldl_cons, mergeStep, if_pos ht]; exact h3
            · rw [h4 z hz hz']; simp [look, hz, hz']
            · rw [h5, List.length_set]
            · rw [h6 a ha, List.getElem?_set_ne (by omega)]
    · rw [Bool.not_eq_true] at ht
      rw [ht] at hx0
      exact fresh ((.«char», .obj x) :: l) (by simp [mergeStep, ht])
        (fun n => merge_other hl hx0 hm) (fun y hy hy' => by simp [look, hy])

/-! ## Writing the pieces -/

/-- usecases.py 680–685: the element of the second comprehension. -/
abbrev textExpr : Expr :=
  .ite (.not (.attr (.name .«char») .is_alphanumeric))
    (.call (.attr (.call (.name .MI) [.call (.name .MIMathMlElement) [.attr (.name .«char») .value] [] []] [] []) .convert) [] [] [])
    (.call (.attr (.call (.name .TextCommand) [.call (.attr (.name .attributes) .get) [.str c!"mathvariant"] [] []] [] []) .apply) [.attr (.name .«char») .value] [] [])

/-- A piece of the text. -/
def textPiece (A : Attrs) (p : Str × Bool) : Str :=
  if p.2 then textCommandApply (Attrs.getD A c!"mathvariant" []) p.1 else miConvert p.1 []

/-- The names that the second comprehension looks up. -/
structure TextLocals (l : Locals) (d : Nat) : Prop where
  attributes : look .attributes l = some (.obj d)
  mi : look .MI l = none
  elem : look .MIMathMlElement l = none
  text : look .TextCommand l = none

theorem run_piece {x d : Nat} {l : Locals} {S : Store} {A : Attrs} (hl : TextLocals l d)
    (hd : S[d]? = some (.dict (dictVal A))) (p : Str × Bool)
    (hx : S[x]? = some (charObj p.1 p.2)) :
    RunsBy 8 (fun n => eval ⟨env, call env n, n⟩ textExpr ((.«char», .obj x) :: l) S)
      fun r => ∃ L, r = .ok (.str (textPiece A p)) (S ++ L) := by
  obtain ⟨s, b⟩ := p
  obtain ⟨h1, h2, h3, h4⟩ := hl
  unfold textPiece
  fuel 8
  cases b with
  | false =>
    sym [MI___init__, MIMathMlElement___init__] [h1, h2, h3, h4, hx]
    step hc run_miChar
    sym [] [hc]
    created
  | true =>
    have h3 := get_dictVal A c!"mathvariant"
    unfold Attrs.getD
    generalize hg : Dict.get? A c!"mathvariant" = o at h3
    rcases o with _ | _ | ⟨c, cs⟩
    · sym [TextCommand___init__] [h1, h2, h3, h4, hx, hd]
      step hc (run_textCommand (variant := []))
      sym [] [hc]
      created
    · sym [TextCommand___init__] [h1, h2, h3, h4, hx, hd]
      step hc (run_textCommand (variant := []))
      sym [] [hc]
      created
    · sym [TextCommand___init__] [h1, h2, h3, h4, hx, hd]
      step hc (run_textCommand (variant := c :: cs))
      sym [] [hc]
      created

theorem run_pieces {d : Nat} {l : Locals} {A : Attrs} (hl : TextLocals l d) :
    ∀ (as : List Nat) (ps : List (Str × Bool)) (S : Store), S[d]? = some (.dict (dictVal A)) →
      CharsAt S as ps → ∃ L, ∀ n, 8 ≤ n →
      compRes (holds ⟨env, call env n, n⟩ []) (eval ⟨env, call env n, n⟩ textExpr) .«char» l
        (as.map .obj) S = .ok ((ps.map (textPiece A)).map .str) (S ++ L)
  | [], [], S, _, _ => ⟨[], fun n _ => by simp [compRes]⟩
  | x :: as, p :: ps, S, hd, hc => by
    obtain ⟨_, ⟨L, rfl⟩, hk⟩ := run_piece (env := env) hl hd p hc.1
    obtain ⟨L', hk'⟩ := run_pieces hl as ps (S ++ L) (look_old L hd) hc.2.append
    replace hk : ∀ n, 8 ≤ n → eval ⟨env, call env n, n⟩ textExpr ((.«char», .obj x) :: l) S =
      .ok (.str (textPiece A p)) (S ++ L) := hk
    refine ⟨L ++ L', fun n hn => ?_⟩
    rw [List.map_cons, compRes, holds, Res.bind_ok, if_pos rfl, hk n (by omega), Res.bind_ok,
      hk' n (by omega), Res.bind_ok]
    simp
  | [], _ :: _, _, _, h => h.elim
  | _ :: _, [], _, _, h => h.elim

/-! ## The whole method -/

theorem join_nil (ss : List Str) : join [] ss = ss.flatten := by
  induction ss with
  | nil => rfl
  | cons s ss ih =>
    cases ss with
    | nil => simp [join]
    | cons t ss => rw [join, ih]; simp

/-- An instance of `MText`. -/
abbrev mtextObj (e : Nat) : Obj := .inst .MText [(._math_element, .obj e)]

theorem run_mtext {a e la d : Nat} {name value : Str} {A : Attrs} {h : Store}
    (ha : h[a]? = some (mtextObj e))
    (he : h[e]? = some (elemObj name value la d)) (hd : h[d]? = some (.dict (dictVal A))) :
    RunsBy 9 (fun n => call env n MText_convert [.obj a] [] h) fun r => ∃ h', 
      r = .ok (.str (mtextConvert value A)) h' ∧ h.length ≤ h'.length ∧
        ∀ a, a < h.length → h'[a]? = h[a]? := by
  obtain ⟨mem, S, l, h1, h2, h3, h4, h5, h6⟩ := run_merge (env := env) h.length
    (h.length + (value.map fun c => charObj [c] (isTextChar c)).length + 1) value h.length
    (h ++ value.map (fun c => charObj [c] (isTextChar c)) ++ [.list (addrs h.length value.length)] ++
      [.list []])
    [(.merged_chars, .obj (h.length + (value.map fun c => charObj [c] (isTextChar c)).length + 1)), (.chars, .obj (h.length + (value.map fun c => charObj [c] (isTextChar c)).length)),
      (.value, .str value), (.attributes, .obj d), (.self, .obj a)] [] [] rfl
    (by simp [Nat.add_assoc]) trivial
    (fun i c hc => by
      have hi : i < value.length := by
        rcases Nat.lt_or_ge i value.length with q | q
        · exact q
        · rw [List.getElem?_eq_none q] at hc; cases hc
      rw [List.append_assoc, List.append_assoc, List.getElem?_append_right (by omega),
        List.getElem?_append_left (by simp; omega), Nat.add_sub_cancel_left, List.getElem?_map, hc]
      rfl)
    (fun a ha => by cases ha) .nil (Nat.le_refl _) (by simp)
  have hlm : look .merged_chars l = some (.obj (h.length + (value.map fun c => charObj [c] (isTextChar c)).length + 1)) :=
    (h4 _ (by decide) (by decide)).trans rfl
  have hll : TextLocals l d := ⟨(h4 _ (by decide) (by decide)).trans rfl,
    (h4 _ (by decide) (by decide)).trans rfl, (h4 _ (by decide) (by decide)).trans rfl,
    (h4 _ (by decide) (by decide)).trans rfl⟩
  have hdl := get_lt hd
  obtain ⟨L, hk⟩ := run_pieces (env := env) hll mem.reverse _ S
    (by rw [h6 d hdl, List.append_assoc, List.append_assoc, List.getElem?_append_left hdl, hd]) h3.reverse
  fuel 9
  sym [MText_convert] [ha, he, run_attributes, run_value, run_chars, h1, h2, hlm, hk, strings_map]
  refine ⟨_, ok_congr ?_ rfl, ?_, ?_⟩
  · rw [join_nil]; rfl
  · simp at h5; simp [h5]; omega
  · intro a ha
    have : a < S.length := by simp at h5; omega
    rw [List.append_assoc, List.getElem?_append_left this, h6 a ha]
    simp [List.getElem?_append_left, ha]

end Verif.Src
