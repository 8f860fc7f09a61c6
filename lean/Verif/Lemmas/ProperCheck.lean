import Verif.Spec.Proper
import Verif.Lemmas.Renders

/-!
# A program that finds out whether an element is proper
-/

namespace Verif
open Spec

/-- The class of a text. -/
def signOf (S : Signs) (k : Str) : Option Effect :=
  if k = [] ∨ S.blanks.any (fun c => k == [c]) then some .blank
  else if S.sups.any (fun c => k == [c]) ∨ k.all (· == '\'') then some .sup
  else if S.subs.any (fun c => k == [c]) then some .sub
  else if (k.all ordinary ∨ S.escapes.any (fun c => k == [c])) ∧
      S.rough.any (fun c => k == [c]) = false then some .nucleus
  else none

theorem any_single {cs k : Str} : cs.any (fun c => k == [c]) = true ↔ ∃ c ∈ cs, k = [c] := by
  simp

theorem signOf_sound {S : Signs} {k : Str} {e : Effect} (h : signOf S k = some e) :
    Sign S k e := by
  simp only [signOf, any_single] at h
  split at h
  · rename_i h1; cases h; exact h1
  split at h
  · rename_i h0 h1
    cases h
    refine h1.imp_right fun h1 => ⟨fun e => h0 (.inl e), ?_⟩
    intro c hc
    simpa using List.all_eq_true.1 h1 c hc
  split at h
  · rename_i h1; cases h; exact h1
  split at h
  · rename_i h0 h1 h2 h3
    cases h
    simp only [not_or] at h0 h1
    refine ⟨h0.1, h3.1.imp_left fun h => List.all_eq_true.1 h, ?_⟩
    rintro c rfl
    refine ⟨?_, fun hm => h1.1 ⟨c, hm, rfl⟩, fun hm => h2 ⟨c, hm, rfl⟩,
      fun hm => h0.2 ⟨c, hm, rfl⟩⟩
    intro hm
    have := any_single.2 ⟨c, hm, rfl⟩
    rw [h3.2] at this; cases this
  · cases h

/-- The scripts that are possible after it. -/
def moved (q : Room) : Effect → Option Room
  | .nucleus => some fresh
  | .sup => if q.sup then some ⟨false, q.sub⟩ else none
  | .sub => if q.sub then some ⟨q.sup, false⟩ else none
  | .blank => some q

theorem moved_sound {q q' : Room} {e : Effect} (h : moved q e = some q') : e.Moves q q' := by
  cases e <;> simp only [moved] at h
  · cases h; rfl
  · split at h
    · rename_i hq; cases h; exact ⟨hq, rfl⟩
    · cases h
  · split at h
    · rename_i hq; cases h; exact ⟨hq, rfl⟩
    · cases h
  · cases h; rfl

/-- The characters of a text. -/
def letters (q : Room) : Str → Option Room
  | [] => some q
  | c :: s =>
    if IsTextChar c then letters fresh s
    else if c ∈ disguised ∨ c = '\'' then none
    else ((signOf miSigns (normalize [c])).bind (moved q)).bind fun q1 => letters q1 s

theorem letters_sound {q q' : Room} {s : Str} (h : letters q s = some q') : Letters q s q' := by
  induction s generalizing q with
  | nil => cases h; exact .nil
  | cons c s ih =>
    rw [letters] at h
    split at h
    · rename_i ht; exact .text ht (ih h)
    split at h
    · cases h
    · rename_i h1 h2
      simp only [not_or] at h2
      obtain ⟨q1, hq, h⟩ := Option.bind_eq_some_iff.1 h
      obtain ⟨e, he, hq⟩ := Option.bind_eq_some_iff.1 hq
      exact .other h1 h2.1 h2.2 (signOf_sound he) (moved_sound hq) (ih h)

/-- The LaTeX has the property. -/
def latexHas (b : Bool) (n : Node) (P : Str → Bool) : Bool :=
  n.isElem && match latexIn b n with
    | .ok s => P s
    | .error _ => false

theorem latexHas_sound {b : Bool} {n : Node} {P : Str → Bool} (h : latexHas b n P = true) :
    (∀ s, Renders b n s → P s = true) ∧ ∃ s, Renders b n s ∧ P s = true := by
  simp only [latexHas, Bool.and_eq_true] at h
  obtain ⟨he, h⟩ := h
  cases hl : latexIn b n with
  | error e => rw [hl] at h; cases h
  | ok s =>
    rw [hl] at h
    refine ⟨fun t ht => ?_, s, (renders_iff he b s).2 hl, h⟩
    rw [renders_iff he b t, hl] at ht
    cases ht; exact h

/-- Alone or wrapped. -/
def around (alone wrapped : Bool) (q : Room) (f : Room → Option Room) : Option Room :=
  if alone then f q else if wrapped then (f fresh).map fun _ => fresh else none

theorem around_sound {alone wrapped : Bool} {P Q : Prop} (hP : alone = true → P)
    (hQ : wrapped = true → Q) {q q' : Room} {f : Room → Option Room}
    (h : around alone wrapped q f = some q') :
    ∃ q0 q1, f q0 = some q1 ∧ Around P Q q q0 q1 q' := by
  unfold around at h
  split at h
  · rename_i ha; exact ⟨q, q', h, .inl ⟨hP ha, rfl, rfl⟩⟩
  split at h
  · rename_i hw
    rw [Option.map_eq_some_iff] at h
    obtain ⟨q1, h1, rfl⟩ := h
    exact ⟨fresh, q1, h1, .inr ⟨hQ hw, rfl, rfl⟩⟩
  · cases h

def short (b : Bool) (n : Node) : Bool := latexHas b n fun s => decide (s.length < 2)
def long (b : Bool) (n : Node) : Bool := latexHas b n fun s => decide (2 ≤ s.length)

theorem short_sound {b : Bool} {n : Node} (h : short b n = true) : Short b n :=
  fun s hs => by simpa using (latexHas_sound h).1 s hs

theorem long_sound {b : Bool} {n : Node} (h : long b n = true) : Long b n :=
  fun s hs => by simpa using (latexHas_sound h).1 s hs

/-- A script base. -/
def aroundBase (b : Bool) (n : Node) (q : Room) (f : Room → Option Room) : Option Room :=
  around (decide ((childElems n).length < 2) || short b n)
    (decide (2 ≤ (childElems n).length) && long b n) q f

theorem aroundBase_sound {b : Bool} {n : Node} {q q' : Room} {f : Room → Option Room}
    (h : aroundBase b n q f = some q') : ∃ q0 q1, f q0 = some q1 ∧ AroundBase b n q q0 q1 q' := by
  refine around_sound (fun h => ?_) (fun h => ?_) h
  · simp only [Bool.or_eq_true, decide_eq_true_eq] at h
    exact h.imp_right short_sound
  · simp only [Bool.and_eq_true, decide_eq_true_eq] at h
    exact ⟨h.1, long_sound h.2⟩

/-- A row. -/
def checkRow (f : Room → Node → Option Room) : Room → List Node → Option Room
  | q, [] => some q
  | q, n :: ns =>
    match f q n with
    | none => none
    | some q1 => checkRow f q1 ns

theorem checkRow_sound {f : Room → Node → Option Room} {q q' : Room} {ns : List Node}
    (h : checkRow f q ns = some q') : ∃ rooms : Nat → Room, rooms 0 = q ∧ rooms ns.length = q' ∧
      ∀ i (h : i < ns.length), f (rooms i) ns[i] = some (rooms (i + 1)) := by
  induction ns generalizing q with
  | nil => cases h; exact ⟨fun _ => q', rfl, rfl, by simp⟩
  | cons n ns ih =>
    rw [checkRow] at h
    split at h
    · cases h
    · rename_i q1 h1
      obtain ⟨rooms, r0, r1, r2⟩ := ih h
      refine ⟨fun i => Nat.casesOn i q rooms, rfl, r1, ?_⟩
      intro i hi
      cases i with
      | zero => show f q n = some (rooms 0); rw [r0]; exact h1
      | succ i => exact r2 i (by simpa using hi)

/-- The rows of a table. -/
def tableOf : Nat → Node → Option (List Node)
  | 0, _ => none
  | k + 1, .elem tag A cs =>
    if tag = c!"mtable" then if attr A c!"innerTable" = [] then some (kids cs) else none
    else if tag ∈ structured then none
    else match kids cs with
      | [n] => tableOf k n
      | _ => none
  | _ + 1, _ => none

theorem tableOf_sound {k : Nat} {n : Node} {rs : List Node} (h : tableOf k n = some rs) :
    TableOf n rs := by
  induction k generalizing n with
  | zero => cases h
  | succ k ih =>
    cases n with
    | elem tag A cs =>
      rw [tableOf] at h
      split at h
      · rename_i e; subst e
        split at h
        · rename_i ha; cases h; exact .table ha
        · cases h
      split at h
      · cases h
      · rename_i ht
        split at h
        · rename_i n hk; exact .row ht hk (ih h)
        · cases h
    | _ => cases h

def noOption (r : Node) : Bool := latexHas true r fun s =>
  match tokens s with
  | [] => true
  | t :: _ => !lineOption t

theorem noOption_sound {r : Node} (h : noOption r = true) : NoOption r := by
  intro s hs t u e
  have := (latexHas_sound h).1 s hs
  rw [e] at this
  simpa using this

def fits (op close : Str) : Bool :=
  (environments.any fun p => p.1 == (op, close)) || op == close ||
    (delimiters.contains op && delimiters.contains close)

theorem fits_sound {op close : Str} (h : fits op close = true) : Fits op close := by
  simp only [fits, Bool.or_eq_true, List.any_eq_true, beq_iff_eq, Bool.and_eq_true,
    List.contains_iff_mem] at h
  rcases h with (⟨⟨p, e⟩, hm, rfl⟩ | h) | h
  · exact .inl ⟨e, hm⟩
  · exact .inr (.inl h)
  · exact .inr (.inr h)

def withTable (cs : List Node) : Bool := (elements cs).any (tagIs c!"mtable")

theorem hasTable_sound {cs : List Node} : withTable cs = true ↔ HasTable cs := by
  simp [withTable, HasTable]

/-- The cells of all rows. -/
def checkCells (f : Node → Option Room) (rs : List Node) : Bool :=
  (rs.all fun r => (cells r).all fun c => (f c).isSome) && rs.tail.all noOption

theorem checkCells_sound {f : Node → Option Room} {rs : List Node} (h : checkCells f rs = true) :
    (∀ r ∈ rs, ∀ c ∈ cells r, f c = some ((f c).getD fresh)) ∧ ∀ r ∈ rs.tail, NoOption r := by
  simp only [checkCells, Bool.and_eq_true, List.all_eq_true] at h
  refine ⟨fun r hr c hc => ?_, fun r hr => noOption_sound (h.2 r hr)⟩
  obtain ⟨q, hq⟩ := Option.isSome_iff_exists.1 (h.1 r hr c hc)
  rw [hq]; rfl

def separatorOk (c : Char) : Bool := ordinary c && !isLetter c && !isSpace c

/-- A pair of scripts. -/
def checkPair (f : Node → Option Room) : Option (Node × Node) → Bool
  | none => true
  | some (p, r) => (f p).isSome && (f r).isSome

theorem checkPair_sound {f : Node → Option Room} {o : Option (Node × Node)}
    (h : checkPair f o = true) (p r : Node) (e : o = some (p, r)) :
    f p = some ((f p).getD fresh) ∧ f r = some ((f r).getD fresh) := by
  subst e
  simp only [checkPair, Bool.and_eq_true] at h
  obtain ⟨q1, h1⟩ := Option.isSome_iff_exists.1 h.1
  obtain ⟨q2, h2⟩ := Option.isSome_iff_exists.1 h.2
  rw [h1, h2]; exact ⟨rfl, rfl⟩

def noSpace (s : Str) : Bool := s.all fun c => !isSpace c
def someSpace (s : Str) : Bool := s.any isSpace

/-- Elements with a meaning of their own. -/
def checkElem (f : Bool → Room → Node → Option Room) (k : Nat) (b : Bool) (q : Room) (tag : Str)
    (A : List (Str × Str)) (cs : List Node) : Option Room :=
  if tag = c!"math" then checkRow (f b) q (kids cs)
  else if tag = c!"mi" then
    (signOf miSigns (normalize (tokenData cs))).bind fun e =>
      around (fonts miVariants [] (attr A c!"mathvariant") == [])
        (fonts miVariants [] (attr A c!"mathvariant") != []) q fun q => moved q e
  else if tag = c!"mo" then (signOf moSigns (normalize (tokenData cs))).bind (moved q)
  else if tag = c!"mn" then (signOf mnSigns (normalize (tokenData cs))).bind (moved q)
  else if tag = c!"mtext" then letters q (strip (tokenData cs))
  else if tag = c!"mphantom" then some q
  else if tag = c!"msqrt" ∨ tag = c!"merror" ∨
      tag = c!"menclose" ∧ attr A c!"notation" ∉ roughNotations then
    (checkRow (f b) fresh (kids cs)).map fun _ => fresh
  else if tag = c!"maction" then
    if isToggle (attr A c!"actiontype") then
      match kids cs with
      | [] => some q
      | n :: ns => (f b q n).bind fun q1 => checkRow (fun _ => f b fresh) q1 ns
    else match kids cs with
      | [] => none
      | n :: _ => f b q n
  else if tag = c!"mfenced" then
    if withTable cs then
      match kids cs with
      | [t] =>
        if fits (attr A c!"open") (attr A c!"close") then
          match tableOf k t with
          | some rs =>
            if b = false ∧ checkCells (f true fresh) rs then some fresh
            else (f b fresh t).map fun _ => fresh
          | none => (f b fresh t).map fun _ => fresh
        else none
      | _ => none
    else if orElse (attr A c!"open") c!"(" ∈ delimiters ∧
        orElse (attr A c!"close") c!")" ∈ delimiters ∧
        (attr A c!"separators").all separatorOk ∧
        (kids cs).all (fun n => (f b fresh n).isSome) then some fresh
    else none
  else if tag = c!"mtable" then
    if (b ∨ attr A c!"innerTable" ≠ []) ∧ checkCells (f true fresh) (kids cs) then some fresh
    else none
  else none

/-- Elements with a fixed number of children. -/
def checkKids (f : Room → Node → Option Room) (b : Bool) (q : Room) (tag : Str)
    (A : List (Str × Str)) : List Node → Option Room
  | [x, y] =>
    if tag = c!"mfrac" then
      if attr A c!"bevelled" = [] then
        (f fresh x).bind fun _ => (f fresh y).map fun _ => fresh
      else (around (short b x) (long b x) q fun q => f q x).bind fun _ =>
        around (short b y) (long b y) fresh fun q => f q y
    else if tag = c!"mroot" then
      if latexHas b y fun s => !s.contains ']' then
        (f fresh x).bind fun _ => (f fresh y).map fun _ => fresh
      else none
    else if tag = c!"msup" then
      (aroundBase b x q fun q => f q x).bind fun q1 =>
        if q1.sup then (f fresh y).map fun _ => ⟨false, q1.sub⟩ else none
    else if tag = c!"msub" then
      (aroundBase b x q fun q => f q x).bind fun q1 =>
        if q1.sub then (f fresh y).map fun _ => ⟨q1.sup, false⟩ else none
    else if tag = c!"munder" ∨ tag = c!"mover" then
      (f fresh x).bind fun _ =>
        if latexHas b y accentCommands.contains then some fresh
        else (f fresh y).map fun _ => fresh
    else none
  | [x, y, z] =>
    if tag = c!"msubsup" then
      (aroundBase b x q fun q => f q x).bind fun q1 =>
        if q1 = fresh then
          (f fresh y).bind fun _ => (f fresh z).map fun _ => ⟨false, false⟩
        else none
    else if tag = c!"munderover" then
      (f q x).bind fun q1 =>
        if q1 = fresh then
          (f fresh y).bind fun _ => (f fresh z).map fun _ => ⟨false, false⟩
        else none
    else none
  | _ => none

/-- Multiple scripts. -/
def checkMulti (f : Room → Node → Option Room) (b : Bool) (q : Room) (ks : List Node) :
    Option Room :=
  match ks with
  | x :: _ :: _ :: _ =>
    if checkPair (f fresh) (prePair ks) ∧ checkPair (f fresh) (postPair ks) then
      (around (latexHas b x noSpace) (latexHas b x someSpace)
        (if (prePair ks).isSome then ⟨false, true⟩ else q) fun q => f q x).bind fun q2 =>
          if (postPair ks).isSome then if q2 = fresh then some ⟨false, false⟩ else none
          else some q2
    else none
  | _ => none

/-- Whether an element is proper. -/
def check : Nat → Bool → Room → Node → Option Room
  | 0, _, _, _ => none
  | k + 1, b, q, .elem tag A cs =>
    if tag ∉ structured then checkRow (check k b) q (kids cs)
    else
      match checkElem (check k) k b q tag A cs with
      | some q' => some q'
      | none =>
        if tag = c!"mmultiscripts" then checkMulti (check k b) b q (kids cs)
        else checkKids (check k b) b q tag A (kids cs)
  | _ + 1, _, _, _ => none

theorem checkElem_sound {f : Bool → Room → Node → Option Room}
    (hf : ∀ b q n q', f b q n = some q' → Proper b q n q') {k : Nat} {b : Bool} {q q' : Room}
    {tag : Str} {A : List (Str × Str)} {cs : List Node} (h : checkElem f k b q tag A cs = some q') :
    Proper b q (.elem tag A cs) q' := by
  unfold checkElem at h
  by_cases e : tag = c!"math"
  · rw [if_pos e] at h; subst e
    obtain ⟨rooms, r0, rfl, r2⟩ := checkRow_sound h
    exact .math r0 fun i hi => hf _ _ _ _ (r2 i hi)
  rw [if_neg e] at h; clear e
  by_cases e : tag = c!"mi"
  · rw [if_pos e] at h; subst e
    obtain ⟨e, he, h⟩ := Option.bind_eq_some_iff.1 h
    obtain ⟨q0, q1, h1, h2⟩ := around_sound (P := fonts miVariants [] (attr A c!"mathvariant") = [])
      (Q := fonts miVariants [] (attr A c!"mathvariant") ≠ []) (fun h => by simpa using h)
      (fun h => by simpa using h) h
    exact .mi (signOf_sound he) (moved_sound h1) h2
  rw [if_neg e] at h; clear e
  by_cases e : tag = c!"mo"
  · rw [if_pos e] at h; subst e
    obtain ⟨e, he, h⟩ := Option.bind_eq_some_iff.1 h
    exact .mo (signOf_sound he) (moved_sound h)
  rw [if_neg e] at h; clear e
  by_cases e : tag = c!"mn"
  · rw [if_pos e] at h; subst e
    obtain ⟨e, he, h⟩ := Option.bind_eq_some_iff.1 h
    exact .mn (signOf_sound he) (moved_sound h)
  rw [if_neg e] at h; clear e
  by_cases e : tag = c!"mtext"
  · rw [if_pos e] at h; subst e; exact .mtext (letters_sound h)
  rw [if_neg e] at h; clear e
  by_cases e : tag = c!"mphantom"
  · rw [if_pos e] at h; subst e; cases h; exact .mphantom
  rw [if_neg e] at h; clear e
  by_cases e : tag = c!"msqrt" ∨ tag = c!"merror" ∨
      tag = c!"menclose" ∧ attr A c!"notation" ∉ roughNotations
  · rw [if_pos e] at h
    obtain ⟨q1, h1, rfl⟩ := Option.map_eq_some_iff.1 h
    obtain ⟨rooms, r0, -, r2⟩ := checkRow_sound h1
    rcases e with e | e | ⟨e, he⟩ <;> subst e
    · exact .msqrt r0 fun i hi => hf _ _ _ _ (r2 i hi)
    · exact .merror r0 fun i hi => hf _ _ _ _ (r2 i hi)
    · exact .menclose he r0 fun i hi => hf _ _ _ _ (r2 i hi)
  rw [if_neg e] at h; clear e
  by_cases e : tag = c!"maction"
  · rw [if_pos e] at h; subst e
    split at h
    · rename_i ht
      split at h
      · rename_i hk; cases h
        have := Proper.toggle (b := b) (A := A) (cs := cs) (rooms := fun _ => q) ht rfl
          (by rw [hk]; simp)
        exact this
      · rename_i n ns hk
        obtain ⟨q1, h1, h⟩ := Option.bind_eq_some_iff.1 h
        obtain ⟨rooms, r0, rfl, r2⟩ := checkRow_sound h
        have := Proper.toggle (b := b) (q := q) (A := A) (cs := cs)
          (rooms := fun i => Nat.casesOn i q rooms) ht rfl (by
            rw [hk]
            intro i hi
            cases i with
            | zero => simpa [r0] using hf _ _ _ _ h1
            | succ i => simpa using hf _ _ _ _ (r2 i (by simpa using hi)))
        rw [hk] at this
        exact this
    · rename_i ht
      split at h
      · cases h
      · rename_i n ns hk
        exact .maction ht hk (hf _ _ _ _ h)
  rw [if_neg e] at h; clear e
  by_cases e : tag = c!"mfenced"
  · rw [if_pos e] at h; subst e
    split at h
    · rename_i ht
      split at h
      · rename_i t hk
        split at h
        · rename_i hfit
          have hin : ∀ {q'}, (f b fresh t).map (fun _ => fresh) = some q' →
              Proper b q (.elem c!"mfenced" A cs) q' := by
            intro q' h
            obtain ⟨q1, h1, rfl⟩ := Option.map_eq_some_iff.1 h
            exact .inMatrix hk (hasTable_sound.1 ht) (fits_sound hfit) (hf _ _ _ _ h1)
          split at h
          · rename_i rs hrs
            split at h
            · rename_i hb
              cases h
              obtain ⟨rfl, hb⟩ := hb
              obtain ⟨c1, c2⟩ := checkCells_sound hb
              exact .matrix hk (tableOf_sound hrs) (fits_sound hfit)
                (fun r hr c hc => hf _ _ _ _ (c1 r hr c hc)) c2
            · exact hin h
          · exact hin h
        · cases h
      · cases h
    split at h
    · rename_i ht hd
      cases h
      obtain ⟨h1, h2, h3, h4⟩ := hd
      refine .mfenced (f := fun n => (f b fresh n).getD fresh)
        (fun h => ht (hasTable_sound.2 h)) h1 h2 ?_ ?_
      · intro c hc
        have := List.all_eq_true.1 h3 c hc
        simpa [separatorOk, and_assoc] using this
      · intro n hn
        obtain ⟨q1, hq⟩ := Option.isSome_iff_exists.1 (List.all_eq_true.1 h4 n hn)
        have := hf _ _ _ _ hq
        rw [hq]; exact this
    · cases h
  rw [if_neg e] at h; clear e
  by_cases e : tag = c!"mtable"
  · rw [if_pos e] at h; subst e
    split at h
    · rename_i hb
      cases h
      obtain ⟨c1, c2⟩ := checkCells_sound hb.2
      exact .innerTable hb.1 (fun r hr c hc => hf _ _ _ _ (c1 r hr c hc)) c2
    · cases h
  · rw [if_neg e] at h; cases h

theorem checkKids_sound {f : Room → Node → Option Room} {b : Bool}
    (hf : ∀ q n q', f q n = some q' → Proper b q n q') {q q' : Room}
    {tag : Str} {A : List (Str × Str)} {cs : List Node}
    (h : checkKids f b q tag A (kids cs) = some q') : Proper b q (.elem tag A cs) q' := by
  unfold checkKids at h
  split at h
  · rename_i x y hk
    split at h
    · rename_i e; subst e
      split at h
      · rename_i ha
        obtain ⟨q1, h1, h⟩ := Option.bind_eq_some_iff.1 h
        obtain ⟨q2, h2, rfl⟩ := Option.map_eq_some_iff.1 h
        exact .mfrac hk ha (hf _ _ _ h1) (hf _ _ _ h2)
      · rename_i ha
        obtain ⟨q1, h1, h⟩ := Option.bind_eq_some_iff.1 h
        obtain ⟨_, _, a1, a2⟩ := around_sound short_sound long_sound h1
        obtain ⟨_, _, b1, b2⟩ := around_sound short_sound long_sound h
        exact .bevelled hk ha a2 (hf _ _ _ a1) b2 (hf _ _ _ b1)
    split at h
    · rename_i e; subst e
      split at h
      · rename_i hb
        obtain ⟨q1, h1, h⟩ := Option.bind_eq_some_iff.1 h
        obtain ⟨q2, h2, rfl⟩ := Option.map_eq_some_iff.1 h
        exact .mroot hk (fun s hs => by simpa using (latexHas_sound hb).1 s hs) (hf _ _ _ h1)
          (hf _ _ _ h2)
      · cases h
    split at h
    · rename_i e; subst e
      obtain ⟨⟨u, v⟩, h1, h⟩ := Option.bind_eq_some_iff.1 h
      obtain ⟨_, _, a1, a2⟩ := aroundBase_sound h1
      split at h
      · rename_i hu
        obtain ⟨q2, h2, rfl⟩ := Option.map_eq_some_iff.1 h
        cases hu
        exact .msup hk a2 (hf _ _ _ a1) (hf _ _ _ h2)
      · cases h
    split at h
    · rename_i e; subst e
      obtain ⟨⟨u, v⟩, h1, h⟩ := Option.bind_eq_some_iff.1 h
      obtain ⟨_, _, a1, a2⟩ := aroundBase_sound h1
      split at h
      · rename_i hu
        obtain ⟨q2, h2, rfl⟩ := Option.map_eq_some_iff.1 h
        cases hu
        exact .msub hk a2 (hf _ _ _ a1) (hf _ _ _ h2)
      · cases h
    split at h
    · rename_i e
      obtain ⟨q1, h1, h⟩ := Option.bind_eq_some_iff.1 h
      split at h
      · rename_i ha
        cases h
        obtain ⟨s, hs, hm⟩ := (latexHas_sound ha).2
        have hacc : Accent b y := ⟨s, by simpa using hm, hs⟩
        rcases e with rfl | rfl
        · exact .underAccent hk (hf _ _ _ h1) hacc
        · exact .overAccent hk (hf _ _ _ h1) hacc
      · obtain ⟨q2, h2, rfl⟩ := Option.map_eq_some_iff.1 h
        rcases e with rfl | rfl
        · exact .under hk (hf _ _ _ h1) (hf _ _ _ h2)
        · exact .over hk (hf _ _ _ h1) (hf _ _ _ h2)
    · cases h
  · rename_i x y z hk
    split at h
    · rename_i e; subst e
      obtain ⟨q1, h1, h⟩ := Option.bind_eq_some_iff.1 h
      obtain ⟨_, _, a1, a2⟩ := aroundBase_sound h1
      split at h
      · rename_i hu
        subst hu
        obtain ⟨q2, h2, h⟩ := Option.bind_eq_some_iff.1 h
        obtain ⟨q3, h3, rfl⟩ := Option.map_eq_some_iff.1 h
        exact .msubsup hk a2 (hf _ _ _ a1) (hf _ _ _ h2) (hf _ _ _ h3)
      · cases h
    split at h
    · rename_i e; subst e
      obtain ⟨q1, h1, h⟩ := Option.bind_eq_some_iff.1 h
      split at h
      · rename_i hu
        subst hu
        obtain ⟨q2, h2, h⟩ := Option.bind_eq_some_iff.1 h
        obtain ⟨q3, h3, rfl⟩ := Option.map_eq_some_iff.1 h
        exact .munderover hk (hf _ _ _ h1) (hf _ _ _ h2) (hf _ _ _ h3)
      · cases h
    · cases h
  · cases h

theorem checkMulti_sound {f : Room → Node → Option Room} {b : Bool}
    (hf : ∀ q n q', f q n = some q' → Proper b q n q') {q q' : Room}
    {A : List (Str × Str)} {cs : List Node}
    (h : checkMulti f b q (kids cs) = some q') : Proper b q (.elem c!"mmultiscripts" A cs) q' := by
  unfold checkMulti at h
  split at h
  · rename_i x y z rest hk
    split at h
    · rename_i hp
      obtain ⟨q2, h1, h⟩ := Option.bind_eq_some_iff.1 h
      obtain ⟨q0, q1, a1, a2⟩ := around_sound
        (P := ∀ s, Renders b x s → ∀ c ∈ s, isSpace c = false)
        (Q := ∀ s, Renders b x s → ∃ c ∈ s, isSpace c = true)
        (fun h s hs => by simpa [noSpace] using (latexHas_sound h).1 s hs)
        (fun h s hs => by simpa [someSpace] using (latexHas_sound h).1 s hs) h1
      refine .mmultiscripts (f := fun n => (f fresh n).getD fresh) hk (by simp)
        (fun p r e => hf _ _ _ (checkPair_sound hp.1 p r e).1)
        (fun p r e => hf _ _ _ (checkPair_sound hp.1 p r e).2) a2 (hf _ _ _ a1)
        (fun p r e => hf _ _ _ (checkPair_sound hp.2 p r e).1)
        (fun p r e => hf _ _ _ (checkPair_sound hp.2 p r e).2) ?_
      split at h
      · rename_i hs
        rw [if_pos hs]
        split at h
        · rename_i e; cases h; exact ⟨e, rfl⟩
        · cases h
      · rename_i hs
        rw [if_neg hs]
        cases h; rfl
    · cases h
  · cases h

theorem check_sound (k : Nat) : ∀ {b : Bool} {q : Room} {n : Node} {q' : Room},
    check k b q n = some q' → Proper b q n q' := by
  induction k with
  | zero => intro _ _ _ _ h; cases h
  | succ k ih =>
    intro b q n q' h
    cases n with
    | elem tag A cs =>
      rw [check] at h
      split at h
      · rename_i ht
        obtain ⟨rooms, r0, rfl, r2⟩ := checkRow_sound h
        exact .row ht r0 fun i hi => ih (r2 i hi)
      · split at h
        · rename_i he
          cases h
          exact checkElem_sound (fun _ _ _ _ => ih) he
        · split at h
          · rename_i e; subst e; exact checkMulti_sound (fun _ _ _ => ih) h
          · exact checkKids_sound (fun _ _ _ => ih) h
    | _ => cases h

end Verif
