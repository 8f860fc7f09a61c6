import Verif.Source.Converters
import Verif.Props.Fresh

/-!
# Threads that share a converter of a tree that was not converted yet (C95)

As for C94, but the shared objects may contain converters, and the calls may be calls of `convert` on them.
-/

namespace Verif.Src.Writes.Marking
open Spec

/-- The object at `c` is a converter for the element `x` at `b`, as `to_latex_converter` of the adapter at `ad` makes it.  If `x` is a table,
then the tables inside it have the mark, because making the converter has set it. -/
structure Holds (S : Store) (h : Heap) (x : Elem) (b ad c : Nat) : Prop where
  object : Converter S (h.cells x.aref) b ad c (classify x.name)
  marked : x.name = c!"mtable" → ∀ y ∈ x.children, ∀ v r cs, Within (.mk c!"mtable" v r cs) y →
    Dict.set (h.cells r) c!"innerTable" c!"innerTable" = h.cells r

mutual
theorem within_tabs {s : Nat} : ∀ {e : Elem}, tabs e s → ∃ v cs, Within (.mk c!"mtable" v s cs) e
  | .mk m v r cs, h => by
    unfold tabs at h
    rcases h with ⟨rfl, rfl⟩ | h
    · exact ⟨v, cs, .self⟩
    · obtain ⟨c, hc, v, cs', hw⟩ := within_tabsL h
      exact ⟨v, cs', .child hc hw⟩
theorem within_tabsL {s : Nat} : ∀ {es : List Elem}, tabsL es s → ∃ e ∈ es, ∃ v cs, Within (.mk c!"mtable" v s cs) e
  | [], h => by unfold tabsL at h; exact h.elim
  | e :: es, h => by
    unfold tabsL at h
    rcases h with h | h
    · obtain ⟨v, cs, hw⟩ := within_tabs h
      exact ⟨e, List.mem_cons_self, v, cs, hw⟩
    · obtain ⟨e', he, h⟩ := within_tabsL h
      exact ⟨e', List.mem_cons_of_mem _ he, h⟩
end

section
variable {S : Store} {h0 : Heap} {Q : Nat → Prop}

theorem run_holding {env : Env} (hb : Bare S h0 Q) {x : Elem} (hx : Free h0 Q x) {ad b c : Nat} (hs : Stands S h0 x b)
    (had : S[ad]? = some (.inst .MathMLElementToLatexConverterAdapter [])) (hc : Holds S h0 x b ad c) :
    ∃ r, Gives env renderCode [.obj c] (blur h0 Q S) r ∧ Agrees id (dom S h0 Q) (blur h0 Q S) (convertElem x h0) r := by
  obtain ⟨name, value, r, cs⟩ := x
  have hN := ripe_of _ hs.isElem.every hx.other hx.outer
  have hi := hs.isElem.mono (blur_ext hb)
  have hd := dom_dicts hb
  unfold IsElem at hi
  obtain ⟨_, la, as, h2, h3, h4⟩ := hi
  have hat : At id (dom S h0 Q) h0 (blur h0 Q S) ad b name value r cs la as := ⟨(blur_ext hb).get had rfl, h2, h3, hN.self, h4, hd⟩
  have hkids : ∀ y ∈ cs, Ripe (dom S h0 Q) y := by
    by_cases hn : name = c!"mtable"
    · unfold Ripe at hN
      refine (hN.2.2.every (N' := dom S h0 Q) (fun _ h => h) fun s hs ha => ⟨ha, fun hQ => ?_⟩).ripe.mem
      obtain ⟨y, hy, v, cs', hw⟩ := within_tabsL hs
      have h5 := hc.marked hn y hy v s cs' hw
      have h6 := (hb.bare s hQ).2
      rw [← h5, Dict.get?_set, if_pos rfl] at h6
      cases h6
    · exact hN.kids hn
  obtain ⟨act, cls, f, fs, m1, m2, m3, m4, m5, m6, m7⟩ := run_converter (env := env) (B := 2 * deeps cs) (K := classify name) hat (by omega)
    (fun y hy => ElemOK.le (elemOK y (hkids y hy)) (by
      have := deep_le_deeps hy
      omega))
    (fun hK => flags_same cs (hc.marked (classify_table hK))) (hc.object.mono (blur_ext hb))
  obtain ⟨r', h7, k, hk⟩ := m7.runs
  have hcv : convertElem (.mk name value r cs) h0 = act h0 := by
    rw [convertElem, toConv, Stack.M_bind_ok m1]
  rw [hcv]
  refine ⟨r', ⟨k + 1, fun n hn => ?_⟩, h7⟩
  obtain ⟨n, rfl⟩ : ∃ m, n = m + 1 := ⟨n - 1, by omega⟩
  replace hk := hk n (by omega)
  rcases h7 with ⟨s, H', h', _, rfl, _⟩ | ⟨e, H', v, h', _, rfl, _⟩
  · dsimp only at hk
    sym [renderCode] [m2, m3, m4, m6, hk]
  · dsimp only at hk
    sym [renderCode] [m2, m3, m4, m6, hk]

/-- **C95** Calling `convert` on a shared converter may be one of the calls of C94. -/
theorem C95_render {env : Env} (hG : GoodS S) (hb : Bare S h0 Q) {x : Elem} (hx : Free h0 Q x) {ad b c : Nat} (hs : Stands S h0 x b)
    (had : S[ad]? = some (.inst .MathMLElementToLatexConverterAdapter [])) (hc : Holds S h0 x b ad c) :
    ∃ k, ∀ n, k ≤ n → Marks env (blur h0 Q S) ⟨n, renderCode, [.obj c], []⟩ ∧ Job.Fair ⟨n, renderCode, [.obj c], []⟩ := by
  obtain ⟨r, hr, ha⟩ := run_holding (env := env) hb hx hs had hc
  refine marks_of hG hb hx (by decide +kernel) (fun v hv => ?_) hr ha
  rw [List.mem_singleton.1 hv]
  trivial

/-- **C95** Whatever the others do, with the same converter, with the same element or with others, a thread that calls `convert` on it gets the LaTeX that the
element has on its own, or the exception. -/
theorem C95_element {env : Env} {T : Store} {ρ : List Nat} (hG : GoodS S) (hF : ∀ o ∈ S, Firm o) (hT : SRel ρ S T) (hb : Bare S h0 Q)
    {W : Shop} (h : Went env (blur h0 Q S) ρ T W) {x : Elem} (hx : Free h0 Q x) {ad b c : Nat} (hs : Stands S h0 x b)
    (had : S[ad]? = some (.inst .MathMLElementToLatexConverterAdapter [])) (hc : Holds S h0 x b ad c) {i n m : Nat} :
    (∀ v, W.calls[i]? = some ⟨⟨n, renderCode, [.obj c], []⟩, m, some (.ret v)⟩ → Seen (convertElem x h0).1 (.ok v W.store)) ∧
    (∀ v, W.calls[i]? = some ⟨⟨n, renderCode, [.obj c], []⟩, m, some (.exc v)⟩ → Seen (convertElem x h0).1 (.exc v W.store)) := by
  obtain ⟨r, h1, h2⟩ := run_holding (env := env) hb hx hs had hc
  exact sees_of hG hF hT hb h h1 h2

/-- **C95** If the element is that of a document, then the LaTeX is that of the document. -/
theorem C95_document {env : Env} {T : Store} {ρ : List Nat} (hG : GoodS S) (hF : ∀ o ∈ S, Firm o) (hT : SRel ρ S T) (hb : Bare S h0 Q)
    {W : Shop} (h : Went env (blur h0 Q S) ρ T W) {x : Elem} (hx : Free h0 Q x) {ad b c : Nat} (hs : Stands S h0 x b)
    (had : S[ad]? = some (.inst .MathMLElementToLatexConverterAdapter [])) (hc : Holds S h0 x b ad c) {d : Node} {e' : Elem} {h0' h1 : Heap}
    (hd : buildElem d h0' = (some e', h1)) (hsame : SameTree h0 h1 x e') {i n m : Nat} :
    (∀ v, W.calls[i]? = some ⟨⟨n, renderCode, [.obj c], []⟩, m, some (.ret v)⟩ → Seen (latexOf d) (.ok v W.store)) ∧
    (∀ v, W.calls[i]? = some ⟨⟨n, renderCode, [.obj c], []⟩, m, some (.exc v)⟩ → Seen (latexOf d) (.exc v W.store)) := by
  rw [← C76_document d x e' h0 h0' h1 h0 [] hd hx.unshared hsame .start]
  exact C95_element hG hF hT hb h hx hs had hc
end

/-! ## Making converters -/

/-- The table has the mark. -/
def HasMark (H : Heap) (fl : Str) (r : Nat) : Prop := Dict.set (H.cells r) fl fl = H.cells r

theorem HasMark.setItem {H : Heap} {fl : Str} {r s : Nat} (h : s = r ∨ HasMark H fl r) : HasMark (H.setItem s fl fl) fl r := by
  unfold HasMark Heap.setItem at *
  dsimp only
  by_cases e : r = s
  · subst e
    rw [if_pos rfl]
    exact Dict.set_set _ _ _
  · rw [if_neg e]
    exact h.resolve_left fun h => e h.symm

mutual
theorem flag_marks {nm fl : Str} : ∀ (x : Elem) {H H' : Heap}, addFlag1 nm fl x H = (.ok (), H') →
    ∀ r, (HasMark H fl r ∨ ∃ v cs, Within (.mk nm v r cs) x) → HasMark H' fl r
  | .mk m v r cs, H, H', e, s, h => by
    rw [addFlag1] at e
    by_cases hm : m = nm
    · rw [if_pos (by simpa using hm)] at e
      have h3 : (modifyThe Heap (fun h => h.setItem r fl fl) : M PUnit) H = (.ok (), H.setItem r fl fl) := rfl
      rw [Stack.M_bind_ok h3] at e
      refine flags_marks cs e s ?_
      rcases h with h | ⟨v', cs', h⟩
      · exact .inl (.setItem (.inr h))
      · cases h with
        | self => exact .inl (.setItem (.inl rfl))
        | child hc hw => exact .inr ⟨_, hc, _, _, hw⟩
    · rw [if_neg (by simpa using hm)] at e
      refine flags_marks cs e s ?_
      rcases h with h | ⟨v', cs', h⟩
      · exact .inl h
      · cases h with
        | self => exact absurd rfl hm
        | child hc hw => exact .inr ⟨_, hc, _, _, hw⟩
theorem flags_marks {nm fl : Str} : ∀ (cs : List Elem) {H H' : Heap}, addFlagRecursiveIfName nm fl cs H = (.ok (), H') →
    ∀ r, (HasMark H fl r ∨ ∃ c ∈ cs, ∃ v cs', Within (.mk nm v r cs') c) → HasMark H' fl r
  | [], H, H', e, r, h => by
    rw [addFlagRecursiveIfName] at e
    cases e
    rcases h with h | ⟨c, hc, _⟩
    · exact h
    · cases hc
  | c :: cs, H, H', e, r, h => by
    rw [addFlagRecursiveIfName] at e
    rcases h1 : addFlag1 nm fl c H with ⟨_ | _, H1⟩
    · rw [Stack.M_bind_error h1] at e
      cases e
    · rw [Stack.M_bind_ok h1] at e
      refine flags_marks cs e r ?_
      rcases h with h | ⟨c', hc, h⟩
      · exact .inl (flag_marks c h1 r (.inl h))
      · rcases List.mem_cons.1 hc with hc | hc
        · rw [hc] at h
          exact .inl (flag_marks c h1 r (.inr h))
        · exact .inr ⟨c', hc, h⟩
end

mutual
theorem stands_later {S S1 : Store} {h h1 : Heap} (he : Ext S S1) (hd : ∀ r, Described S h r → Described S1 h1 r) :
    ∀ {x : Elem} {a : Nat}, Stands S h x a → Stands S1 h1 x a
  | _, _, .mk g1 g2 g3 g4 => .mk (he.get g1 rfl) (he.get g2 rfl) (hd _ g3) (stand_later he hd g4)
theorem stand_later {S S1 : Store} {h h1 : Heap} (he : Ext S S1) (hd : ∀ r, Described S h r → Described S1 h1 r) :
    ∀ {xs : List Elem} {as : List Nat}, Stand S h xs as → Stand S1 h1 xs as
  | _, _, .nil => .nil
  | _, _, .cons g1 g2 => .cons (stands_later he hd g1) (stand_later he hd g2)
end

theorem construct_same {K : Kind} (hK : K ≠ .mtable) (name value : Str) (r : Nat) (cs : List Elem) (kids : List Kid) (H : Heap) :
    ∃ act, construct K name value r cs kids H = (.ok act, H) := by
  cases K
  case mtable => exact absurd rfl hK
  all_goals exact ⟨_, rfl⟩

/-- **C95** What `to_latex_converter` returns, for any element, is such a converter.  The element then stands in the store with the attributes that it has in the
model after the converter was made; unless it is a table, all objects are as before. -/
theorem C95_create {env : Env} {S : Store} {h0 : Heap} {x : Elem} {ad b : Nat} (hs : Stands S h0 x b)
    (had : S[ad]? = some (.inst .MathMLElementToLatexConverterAdapter [])) :
    ∃ c S1 act h1, Gives env createCode [.obj ad, .obj b] S (.ok (.obj c) S1) ∧ toConv x h0 = (.ok act, h1) ∧ Stands S1 h1 x b ∧
      Holds S1 h1 x b ad c ∧ (x.name ≠ c!"mtable" → S <+: S1 ∧ h1 = h0) := by
  obtain ⟨name, value, r, cs⟩ := x
  have hi := hs.isElem
  unfold IsElem at hi
  obtain ⟨hr, la, as, h2, h3, h4⟩ := hi
  have he := Ext.app S (choiceObjs ad name)
  have hd := described S h0
  have hat : At id (Dom.whole (Described S h0)) h0 (S ++ choiceObjs ad name) ad b name value r cs la as :=
    ⟨look_old _ had, look_old _ h2, look_old _ h3, hr, h4.mono he, hd.app _⟩
  have gives : ∀ {c : Nat} {S1 : Store} {k : Nat}, (∀ n, k ≤ n → apply ⟨env, call env n, n⟩ (convVal ad (classify name))
      [.obj b] [] (S ++ choiceObjs ad name) = .ok (.obj c) S1) → Gives env createCode [.obj ad, .obj b] S (.ok (.obj c) S1) := by
    intro c S1 k hk
    have hch := run_choice had h2 hk
    refine ⟨k + 4, fun n hn => ?_⟩
    obtain ⟨n, rfl⟩ : ∃ m, n = m + 1 := ⟨n - 1, by omega⟩
    replace hch := hch n (by omega)
    sym [createCode] [had, hch]
  by_cases hK : classify name = .mtable
  · have hn := classify_table hK
    subst hn
    rw [hK] at gives
    obtain ⟨_, ⟨c, S1, H1, rfl, q1, q2, q3, q4⟩, hk⟩ := created_table (env := env) (B := deeps cs) hat (Nat.le_refl _)
    refine ⟨c, S1, mtableConvert r (kidsOf cs), H1, gives hk, ?_, ?_, ⟨q4, fun _ y hy v s cs' hw => ?_⟩, fun h => absurd rfl h⟩
    · rw [toConv, hK]
      unfold construct
      dsimp only
      rw [Stack.M_bind_ok q1]
      rfl
    · exact stands_later (he.trans q2) (fun s hs => q3.get s (.inl hs)) hs
    · exact flags_marks cs q1 s (.inr ⟨y, hy, v, cs', hw⟩)
  · obtain ⟨_, ⟨c, S1, rfl, q1, q2⟩, hk⟩ := created (env := env) hat hK
    obtain ⟨act, ha⟩ := construct_same hK name value r cs (kidsOf cs) h0
    have hp : S <+: S1 := (List.prefix_append _ _).trans q1
    have hext : Ext S S1 := by
      obtain ⟨L, rfl⟩ := hp
      exact .app S L
    refine ⟨c, S1, act, h0, gives hk, by rw [toConv]; exact ha, ?_, ⟨q2, fun hn => ?_⟩, fun _ => ⟨hp, rfl⟩⟩
    · refine stands_later hext (fun s hs => ?_) hs
      obtain ⟨L, rfl⟩ := hp
      exact look_old _ hs
    · have hn : name = c!"mtable" := hn
      subst hn
      exact absurd rfl hK

mutual
theorem flag_cells {nm fl : Str} : ∀ (x : Elem) {H H' : Heap}, addFlag1 nm fl x H = (.ok (), H') →
    ∀ r, (∀ v cs, Within (.mk nm v r cs) x → HasMark H fl r) → H'.cells r = H.cells r
  | .mk m v r cs, H, H', e, s, h => by
    rw [addFlag1] at e
    by_cases hm : m = nm
    · rw [if_pos (by simpa using hm)] at e
      have h3 : (modifyThe Heap (fun h => h.setItem r fl fl) : M PUnit) H = (.ok (), H.setItem r fl fl) := rfl
      rw [Stack.M_bind_ok h3] at e
      have h4 := flags_cells cs e s fun c hc v' cs' hw => .setItem (.inr (h v' cs' (.child hc hw)))
      rw [h4]
      show (if s = r then Dict.set (H.cells r) fl fl else H.cells s) = _
      split
      · next e => subst e; subst hm; exact h _ _ .self
      · rfl
    · rw [if_neg (by simpa using hm)] at e
      exact flags_cells cs e s fun c hc v' cs' hw => h v' cs' (.child hc hw)
theorem flags_cells {nm fl : Str} : ∀ (cs : List Elem) {H H' : Heap}, addFlagRecursiveIfName nm fl cs H = (.ok (), H') →
    ∀ r, (∀ c ∈ cs, ∀ v cs', Within (.mk nm v r cs') c → HasMark H fl r) → H'.cells r = H.cells r
  | [], H, H', e, r, h => by
    rw [addFlagRecursiveIfName] at e
    cases e
    rfl
  | c :: cs, H, H', e, r, h => by
    rw [addFlagRecursiveIfName] at e
    rcases h1 : addFlag1 nm fl c H with ⟨_ | _, H1⟩
    · rw [Stack.M_bind_error h1] at e
      cases e
    · rw [Stack.M_bind_ok h1] at e
      rw [flags_cells cs e r fun c' hc v cs' hw => flag_marks c h1 r (.inl (h c' (List.mem_cons_of_mem _ hc) v cs' hw))]
      exact flag_cells c h1 r (h c List.mem_cons_self)
end

theorem tableIn_within {b : Bool} {v : Str} {r : Nat} {cs : List Elem} {x : Elem} (h : Within (.mk c!"mtable" v r cs) x) :
    TableIn b x b r ∨ TableIn b x true r := by
  generalize he : Elem.mk c!"mtable" v r cs = t at h
  induction h generalizing b with
  | self => subst he; exact .inl .here
  | @child e c e' hc _ ih =>
    obtain ⟨n, v', r', cs'⟩ := e
    by_cases hn : n = c!"mtable"
    · subst hn
      exact .inr ((ih (b := true) he).elim (.inTable hc) (.inTable hc))
    · exact (ih (b := b) he).imp (.inOther hn hc) (.inOther hn hc)

/-- **C95** Making a converter for such an element may be one of the calls, too. -/
theorem C95_make {env : Env} {S : Store} {h0 : Heap} {Q : Nat → Prop} (hG : GoodS S) (hb : Bare S h0 Q) {x : Elem} (hx : Free h0 Q x) {ad b : Nat}
    (hs : Stands S h0 x b) (had : S[ad]? = some (.inst .MathMLElementToLatexConverterAdapter [])) :
    ∃ k, ∀ n, k ≤ n → Marks env (blur h0 Q S) ⟨n, createCode, [.obj ad, .obj b], []⟩ ∧ Job.Fair ⟨n, createCode, [.obj ad, .obj b], []⟩ := by
  obtain ⟨name, value, r, cs⟩ := x
  have hN := ripe_of _ hs.isElem.every hx.other hx.outer
  have hi := hs.isElem.mono (blur_ext hb)
  have hd := dom_dicts hb
  have h1 : (blur h0 Q S)[ad]? = some adapterObj := (blur_ext hb).get had rfl
  unfold IsElem at hi
  obtain ⟨hr, la, as, h2, h3, h4⟩ := hi
  have he := Ext.app (blur h0 Q S) (choiceObjs ad name)
  have hat : At id (dom S h0 Q) h0 (blur h0 Q S ++ choiceObjs ad name) ad b name value r cs la as :=
    ⟨look_old _ h1, look_old _ h2, look_old _ h3, hN.self, h4.mono he, hd.app _⟩
  have gives : ∀ {c : Nat} {S1 : Store} {k : Nat}, (∀ n, k ≤ n → apply ⟨env, call env n, n⟩ (convVal ad (classify name))
      [.obj b] [] (blur h0 Q S ++ choiceObjs ad name) = .ok (.obj c) S1) → Gives env createCode [.obj ad, .obj b] (blur h0 Q S) (.ok (.obj c) S1) := by
    intro c S1 k hk
    have hch := run_choice h1 h2 hk
    refine ⟨k + 4, fun n hn => ?_⟩
    obtain ⟨n, rfl⟩ : ∃ m, n = m + 1 := ⟨n - 1, by omega⟩
    replace hch := hch n (by omega)
    sym [createCode] [h1, hch]
  have hg : ∀ v ∈ [Val.obj ad, .obj b], Good v := fun v hv => by
    simp only [List.mem_cons, List.not_mem_nil, or_false] at hv
    rcases hv with rfl | rfl <;> trivial
  by_cases hK : classify name = .mtable
  · have hn := classify_table hK
    subst hn
    rw [hK] at gives
    obtain ⟨_, ⟨c, S1, H1, rfl, q1, q2, q3, q4⟩, hk⟩ := created_table (env := env) (B := deeps cs) hat (Nat.le_refl _)
    refine marks_end hG hb (by decide +kernel) hg (gives hk) (H := H1) (fun s hQ => flags_cells cs q1 s fun y hy v cs' hw => ?_)
      ⟨_, S1, .inl rfl, he.trans q2, q3.less rfl fun _ h => .inl h⟩
    exact (hx.inner s (.inTable hy ((tableIn_within hw).elim id id))).resolve_left hQ
  · obtain ⟨_, ⟨c, S1, rfl, q1, q2⟩, hk⟩ := created (env := env) hat hK
    obtain ⟨L, rfl⟩ := q1
    exact marks_end hG hb (by decide +kernel) hg (gives hk) (H := h0) (fun _ _ => rfl)
      ⟨_, _, .inl rfl, he.trans (.app _ L), (hd.app _).app L⟩

/-! ## Examples -/

/-- An `mrow` with a table in a table. -/
def desk : Store := shelf ++ [.dict [], .list [.obj 6],
  .inst .GenericMathMLElement [(._name, .str c!"mrow"), (._value, .str []), (._children, .obj 8), (._attributes, .obj 7)]]

/-- The `mrow` as an element. -/
def deskElem : Elem := .mk c!"mrow" [] 7 [shelfElem]

/-- What there is after a converter was made for the `mrow`. -/
def desk' : Store := desk ++ [.dict (convDict 0), plainObj .GenericSpacingWrapper 9 0]

/-- The objects that are shared, with the converter. -/
def deskShared : Store := desk ++ [plainObj .GenericSpacingWrapper 9 0]

/-- Where they are. -/
abbrev deskPlaces : List Nat := [0, 1, 2, 3, 4, 5, 6, 7, 8, 9, 11]

theorem desk_create (env : Env) : Gives env createCode [.obj 0, .obj 9] desk (.ok (.obj 11) desk') := by
  refine ⟨20, fun n hn => ?_⟩
  obtain ⟨n, rfl⟩ : ∃ m, n = m + 20 := ⟨n - 20, by omega⟩
  rfl

theorem desk_stands : Stands deskShared Heap.empty deskElem 9 :=
  .mk (as := [6]) rfl rfl rfl (.cons (.mk (as := [3]) rfl rfl rfl (.cons (.mk (as := []) rfl rfl rfl .nil) .nil)) .nil)

theorem desk_bare : Bare deskShared Heap.empty (· = 1) where
  dicts := by
    intro a d h
    match a, h with
    | 1, _ | 4, _ | 7, _ => exact rfl
    | 0, h | 2, h | 3, h | 5, h | 6, h | 8, h | 9, h | 10, h => cases h
  bare := by
    rintro r rfl
    exact ⟨rfl, rfl⟩

theorem desk_tables {b : Bool} {r : Nat} (h : TableIn false deskElem b r) : TableIn false shelfElem b r := by
  cases h with
  | inOther _ hc h =>
    rw [List.mem_singleton.1 hc] at h
    exact h

theorem desk_free : Free Heap.empty (· = 1) deskElem where
  unshared := fun r h1 h2 => shelf_unshared r (desk_tables h1) (desk_tables h2)
  inner := fun r h => shelf_free.inner r (desk_tables h)
  outer := fun r h => shelf_free.outer r (desk_tables h)
  other := fun n v r cs h hn => by
    cases h with
    | self => decide
    | child hc h =>
      rw [List.mem_singleton.1 hc] at h
      exact shelf_free.other n v r cs h hn

theorem desk_holds : Holds deskShared Heap.empty deskElem 9 0 10 where
  object := rfl
  marked := fun h => by cases h

theorem desk_fine : GoodS deskShared ∧ ∀ o ∈ deskShared, Firm o := by
  have h : ∀ o ∈ deskShared, GoodO o ∧ Firm o := by
    intro o ho
    simp only [deskShared, desk, shelf, List.cons_append, List.nil_append, List.mem_cons, List.not_mem_nil, or_false] at ho
    rcases ho with rfl | rfl | rfl | rfl | rfl | rfl | rfl | rfl | rfl | rfl | rfl <;> simp [GoodO, Good, Firm, loose, look]
  exact ⟨fun o ho => (h o ho).1, fun o ho => (h o ho).2⟩

theorem desk_places : SRel deskPlaces deskShared desk' where
  len := rfl
  nodup := by decide
  get := fun {a a' o} h1 h2 => by
    match a, h1, h2 with
    | 0, h1, h2 => cases h1; cases h2; exact ⟨_, rfl, .inst .nil⟩
    | 1, h1, h2 | 4, h1, h2 | 7, h1, h2 => cases h1; cases h2; exact ⟨_, rfl, .dict .nil⟩
    | 2, h1, h2 => cases h1; cases h2; exact ⟨_, rfl, .list .nil⟩
    | 5, h1, h2 | 8, h1, h2 => cases h1; cases h2; exact ⟨_, rfl, .list (.cons (.obj rfl) .nil)⟩
    | 3, h1, h2 | 6, h1, h2 | 9, h1, h2 =>
      cases h1; cases h2
      exact ⟨_, rfl, .inst (.cons (.same rfl) (.cons (.same rfl) (.cons (.obj rfl) (.cons (.obj rfl) .nil))))⟩
    | 10, h1, h2 => cases h1; cases h2; exact ⟨_, rfl, .inst (.cons (.obj rfl) (.cons (.obj rfl) .nil))⟩

/-- One thread calls `convert` on a shared converter for an `mrow` with a table in a table, which no one has converted before, and another converts the `mrow` with
the adapter.  The second begins when the first has begun; then both do all their operations, and both get the same LaTeX. -/
example (env : Env) : ∃ W n n' m m' v, Went env (blur Heap.empty (· = 1) deskShared) deskPlaces desk' W ∧
    W.calls = [⟨⟨n, renderCode, [.obj 10], []⟩, m, some (.ret v)⟩, ⟨⟨n', useCode, [.obj 0, .obj 9], []⟩, m', some (.ret v)⟩] ∧
    v = .str c!"\\begin{matrix}\\end{matrix}" := by
  obtain ⟨hG, hF⟩ := desk_fine
  have hT := desk_places
  have hx : (convertElem deskElem Heap.empty).1 = .ok c!"\\begin{matrix}\\end{matrix}" := by decide +kernel
  have ha : VRels deskPlaces [.obj 10] [.obj 11] := .cons (.obj rfl) .nil
  have ha' : VRels deskPlaces [.obj 0, .obj 9] [.obj 0, .obj 9] := .cons (.obj rfl) (.cons (.obj rfl) .nil)
  obtain ⟨n, hn⟩ := C95_render (env := env) hG desk_bare desk_free (ad := 0) desk_stands rfl desk_holds
  obtain ⟨n', hn'⟩ := C94_use (env := env) hG desk_bare desk_free (ad := 0) desk_stands rfl
  obtain ⟨hl, hf⟩ := hn n (Nat.le_refl n)
  obtain ⟨hl', hf'⟩ := hn' n' (Nat.le_refl n')
  have w1 := (Went.nil (env := env) (P := blur Heap.empty (· = 1) deskShared) (ρ := deskPlaces) (T := desk')).snoc (.start hf hl ha .nil)
  have w2 := w1.snoc (.start hf' hl' ha' .nil)
  obtain ⟨m, R, q, w3, hq⟩ := w2.run (i := 0) rfl
  obtain ⟨m', R', q', w4, hq'⟩ := w3.run (i := 1) rfl
  have hB := C94_blurred desk_bare
  have e : q = .ret (.str c!"\\begin{matrix}\\end{matrix}") := by
    have hs := C95_element hG hF hT desk_bare w4 desk_free (ad := 0) desk_stands rfl desk_holds (i := 0) (n := n) (m := m)
    rw [hx] at hs
    rcases hq with ⟨v, rfl⟩ | ⟨v, rfl⟩ | rfl
    · have := hs.1 v rfl
      cases this
      rfl
    · have := hs.2 v rfl
      cases this
    · exact absurd rfl (C94_not_stuck hG hF hT hB w4 (i := 0))
  have e' : q' = .ret (.str c!"\\begin{matrix}\\end{matrix}") := by
    have hs := C94_element hG hF hT desk_bare w4 desk_free (ad := 0) desk_stands rfl (i := 1) (n := n') (m := m')
    rw [hx] at hs
    rcases hq' with ⟨v, rfl⟩ | ⟨v, rfl⟩ | rfl
    · have := hs.1 v rfl
      cases this
      rfl
    · have := hs.2 v rfl
      cases this
    · exact absurd rfl (C94_not_stuck hG hF hT hB w4 (i := 1))
  exact ⟨_, n, n', m, m', _, w4, by rw [e, e']; rfl, rfl⟩

/-- A thread may make a converter for the `mrow`. -/
example (env : Env) : ∃ k, ∀ n, k ≤ n → Marks env (blur Heap.empty (· = 1) deskShared) ⟨n, createCode, [.obj 0, .obj 9], []⟩ ∧
    Job.Fair ⟨n, createCode, [.obj 0, .obj 9], []⟩ := C95_make desk_fine.1 desk_bare desk_free desk_stands rfl

end Verif.Src.Writes.Marking
