import Verif.Refine.Again
import Verif.Props.Among

/-!
# What is done again changes nothing (C93)

The only objects that a conversion changes, among those that were there before, are dictionaries of tables inside
tables (C84, C91).  Here: once an element has been converted, with or without success, converting it again changes no object at all,
whatever has been done with the tree in between; and for a table it is enough that a converter has been created for it.
-/

namespace Verif.Src
open Spec

/-! ## Definitions -/

/-- What may happen to a tree later: the steps are those of `Uses`. -/
inductive Since (env : Env) (root : Elem) (S0 : Store) (h0 : Heap) (cs : List (Elem × Nat)) (S : Store) :
    List (Elem × Nat) → Store → Prop
  | now : Since env root S0 h0 cs S cs S
  | create {ks S1 x b ad c S'} : Since env root S0 h0 cs S ks S1 → Within x root → Stands S0 h0 x b →
      S1[ad]? = some (.inst .MathMLElementToLatexConverterAdapter []) →
      Gives env createCode [.obj ad, .obj b] S1 (.ok (.obj c) S') →
      Since env root S0 h0 cs S ((x, c) :: ks) S'
  | convert {ks S1 x c v S'} : Since env root S0 h0 cs S ks S1 → (x, c) ∈ ks →
      Gives env renderCode [.obj c] S1 (.ok v S') → Since env root S0 h0 cs S ks S'
  | failed {ks S1 x c v S'} : Since env root S0 h0 cs S ks S1 → (x, c) ∈ ks →
      Gives env renderCode [.obj c] S1 (.exc v S') → Since env root S0 h0 cs S ks S'
  | other {ks S1 S'} : Since env root S0 h0 cs S ks S1 → Elsewhere (Described S0 h0) S1 S' → Since env root S0 h0 cs S ks S'

/-- `def use(adapter, child): return adapter.to_latex_converter(child).convert()` -/
def useCode : Func :=
  ⟨[(.adapter, none), (.child, none)],
   [.ret (.call (.attr (.call (.attr (.name .adapter) .to_latex_converter) [.name .child] [] []) .convert) [] [] [])]⟩

/-- The element has been converted, with or without success. -/
def Rendered (env : Env) (root : Elem) (S0 : Store) (h0 : Heap) (x : Elem) (cs : List (Elem × Nat)) (S : Store) : Prop :=
  ∃ cs1 S1 c v S2, Uses env root S0 h0 cs1 S1 ∧ (x, c) ∈ cs1 ∧
    (Gives env renderCode [.obj c] S1 (.ok v S2) ∨ Gives env renderCode [.obj c] S1 (.exc v S2)) ∧
    Since env root S0 h0 cs1 S2 cs S

/-- All tables of the element that are inside tables of the element have the mark. -/
def Marked (x : Elem) (S : Store) : Prop :=
  ∀ d D, TableIn false x true d → S[d]? = some (.dict D) → Dict.set D c!"innerTable" (.str c!"innerTable") = D

/-- The objects in `P` refer to each other only, and the dictionaries among them are those that `h0` describes. -/
structure Held (S0 : Store) (h0 : Heap) (P : Nat → Prop) (S : Store) : Prop extends Enclosed S P where
  dicts : ∀ d D, P d → S[d]? = some (.dict D) → Described S0 h0 d

/-- The code ends, with a result or with an exception, and all objects that were there are as they were. -/
def Still (env : Env) (f : Func) (args : List Val) (S : Store) : Prop :=
  ∃ v S', (Gives env f args S (.ok v S') ∨ Gives env f args S (.exc v S')) ∧ ∀ a, a < S.length → S'[a]? = S[a]?

/-! ## Proofs -/

theorem Since.uses {env : Env} {root : Elem} {S0 : Store} {h0 : Heap} {cs ks : List (Elem × Nat)} {S S' : Store}
    (h : Since env root S0 h0 cs S ks S') (hu : Uses env root S0 h0 cs S) : Uses env root S0 h0 ks S' := by
  induction h with
  | now => exact hu
  | create _ hw hs had hg ih => exact .create ih hw hs had hg
  | convert _ hc hg ih => exact .convert ih hc hg
  | failed _ hc hg ih => exact .failed ih hc hg
  | other _ he ih => exact .other ih he

theorem Rendered.uses {env : Env} {root : Elem} {S0 : Store} {h0 : Heap} {x : Elem} {cs : List (Elem × Nat)} {S : Store}
    (h : Rendered env root S0 h0 x cs S) : Uses env root S0 h0 cs S := by
  obtain ⟨cs1, S1, c, v, S2, h1, h2, h3, h4⟩ := h
  rcases h3 with h3 | h3
  · exact h4.uses (.convert h1 h2 h3)
  · exact h4.uses (.failed h1 h2 h3)

/-- The state of the model that goes with a store. -/
structure Stage (env : Env) (root : Elem) (S0 : Store) (h0 : Heap) (cs : List (Elem × Nat)) (S : Store)
    (ks : List (Elem × M Str)) (H : Heap) : Prop where
  hist : History root h0 ks H
  ext : Ext S0 S
  dicts : Dicts id (Described S0 h0) H S
  acts : AllAct env (Described S0 h0) S cs ks

theorem Uses.stage {env : Env} {root : Elem} {S0 : Store} {h0 : Heap} {cs : List (Elem × Nat)} {S : Store}
    (hu : Uses env root S0 h0 cs S) : ∃ ks H, Stage env root S0 h0 cs S ks H := by
  obtain ⟨ks, H, h1, h2, h3, h4⟩ := hu.history
  exact ⟨ks, H, h1, h2, h3, h4⟩

section
variable {env : Env} {root : Elem} {S0 : Store} {h0 : Heap} {cs : List (Elem × Nat)} {S : Store}

theorem Stage.render {ks : List (Elem × M Str)} {H : Heap} (h : Stage env root S0 h0 cs S ks H) {x : Elem} {c : Nat} (hc : (x, c) ∈ cs) :
    ∃ k S', (x, k) ∈ ks ∧ (∃ v, Gives env renderCode [.obj c] S (.ok v S') ∨ Gives env renderCode [.obj c] S (.exc v S')) ∧
      Ext S S' ∧ Stage env root S0 h0 cs S' ks (k H).2 := by
  obtain ⟨k, hk, ha⟩ := h.acts.find hc
  obtain ⟨r, r1, r2⟩ := run_render ha h.dicts
  obtain ⟨S', s1, s2, ⟨s, _, rfl⟩ | ⟨_, v, _, rfl, _⟩⟩ := r2.state
  · exact ⟨k, S', hk, ⟨_, .inl r1⟩, s1, .convert h.hist hk, h.ext.trans s1, s2, h.acts.mono s1⟩
  · exact ⟨k, S', hk, ⟨_, .inr r1⟩, s1, .convert h.hist hk, h.ext.trans s1, s2, h.acts.mono s1⟩

theorem end_unique {f : Func} {args : List Val} {S' S'' : Store} {v v' : Val}
    (h : Gives env f args S (.ok v S') ∨ Gives env f args S (.exc v S')) (h' : Gives env f args S (.ok v' S'') ∨ Gives env f args S (.exc v' S'')) :
    S' = S'' := by
  rcases h with h | h <;> rcases h' with h' | h' <;> cases h.unique h' <;> rfl

theorem Since.stage {ks1 : List (Elem × M Str)} {H1 : Heap} (hs : Stage env root S0 h0 cs S ks1 H1) {cs' : List (Elem × Nat)} {S' : Store}
    (h : Since env root S0 h0 cs S cs' S') : ∃ ks H, Stage env root S0 h0 cs' S' ks H ∧ Marks H1 H := by
  induction h with
  | now => exact ⟨ks1, H1, hs, .refl _⟩
  | @create _ _ x _ _ _ _ _ hw hst had hg ih =>
    obtain ⟨ks, H, h, hm⟩ := ih
    obtain ⟨c, S1, H2, act, g1, g2, g3, g4, g5⟩ := run_create (env := env) had (hst.isElem.mono h.ext) h.dicts
    cases hg.unique g1
    have := (again_toConv x).marks H
    rw [g2] at this
    exact ⟨_, _, ⟨.create h.hist hw g2, h.ext.trans g3, g4, .cons g5 (h.acts.mono g3)⟩, hm.trans this⟩
  | convert _ hc hg ih =>
    obtain ⟨ks, H, h, hm⟩ := ih
    obtain ⟨k, S', hk, ⟨v, g⟩, _, h'⟩ := h.render hc
    cases end_unique (.inl hg) g
    exact ⟨ks, _, h', hm.trans (h.hist.marks hk H)⟩
  | failed _ hc hg ih =>
    obtain ⟨ks, H, h, hm⟩ := ih
    obtain ⟨k, S', hk, ⟨v, g⟩, _, h'⟩ := h.render hc
    cases end_unique (.inr hg) g
    exact ⟨ks, _, h', hm.trans (h.hist.marks hk H)⟩
  | other _ he ih =>
    obtain ⟨ks, H, h, hm⟩ := ih
    exact ⟨ks, H, ⟨h.hist, h.ext.trans he.ext, he.dicts h.dicts, h.acts.mono he.ext⟩, hm⟩

/-- In the model, nothing is changed by a use of the element, with an old converter or with a new one. -/
def Settles (ks : List (Elem × M Str)) (x : Elem) (H : Heap) : Prop :=
  (∀ k, (x, k) ∈ ks → (k H).2 = H) ∧ ∀ k H', toConv x H = (.ok k, H') → H' = H ∧ (k H).2 = H

theorem Rendered.settles {x : Elem} (h : Rendered env root S0 h0 x cs S) : ∃ ks H, Stage env root S0 h0 cs S ks H ∧ Settles ks x H := by
  obtain ⟨cs1, S1, c, v, S2, h1, h2, h3, h4⟩ := h
  obtain ⟨ks1, H1, hs⟩ := h1.stage
  obtain ⟨k, S2', hk, ⟨v', g⟩, _, hs2⟩ := hs.render h2
  cases end_unique h3 g
  obtain ⟨ks, K, hs3, hm⟩ := h4.stage hs2
  obtain ⟨G, G', g1, g2⟩ := hs.hist.made x k hk
  obtain ⟨a1, k', a2, a3⟩ := hs.hist.again hk hm
  have m1 : Marks H1 K := (hs.hist.marks hk H1).trans hm
  refine ⟨ks, K, hs3, fun k2 hk2 => ?_, fun k2 H' e => ?_⟩
  · obtain ⟨G2, G2', q1, q2⟩ := hs3.hist.made x k2 hk2
    exact ((again_converter x (congrArg Prod.fst g1) (congrArg Prod.fst q1)).stays H1 K m1 hm).1
  · rw [a2] at e
    cases e
    exact ⟨rfl, a3⟩

theorem dictVal_inj : ∀ {A B : Attrs}, dictVal A = dictVal B → A = B
  | [], [], _ => rfl
  | [], _ :: _, h => by simp [dictVal] at h
  | _ :: _, [], h => by simp [dictVal] at h
  | (a, b) :: A, (c, d) :: B, h => by
    simp only [dictVal, List.map_cons, List.cons.injEq, Prod.mk.injEq, Val.str.injEq] at h
    obtain ⟨⟨rfl, rfl⟩, h⟩ := h
    rw [dictVal_inj (A := A) (B := B) h]

theorem dictVal_mark (A : Attrs) (k v : Str) : dictVal (Dict.set A k v) = Dict.set (dictVal A) k (.str v) := by
  unfold Dict.set dictVal
  rw [List.any_map]
  have e : ((fun p : Str × Val => p.1 == k) ∘ fun p : Str × Str => (p.1, Val.str p.2)) = fun p => p.1 == k := rfl
  rw [e]
  split
  · rw [List.map_map, List.map_map]
    refine List.map_congr_left fun p _ => ?_
    simp only [Function.comp]
    split <;> rfl
  · rw [List.map_append]
    rfl

mutual
theorem Stands.table {x : Elem} {b : Nat} (h : Stands S0 h0 x b) : ∀ d ∈ tableRefs x, Described S0 h0 d := by
  cases h with
  | mk h1 h2 h3 h4 =>
    intro d hd
    rw [tableRefs, List.mem_append] at hd
    rcases hd with hd | hd
    · split at hd
      · rw [List.mem_singleton] at hd
        subst hd
        exact h3
      · cases hd
    · exact h4.tables d hd
theorem Stand.tables {xs : List Elem} {bs : List Nat} (h : Stand S0 h0 xs bs) : ∀ d ∈ tableRefsL xs, Described S0 h0 d := by
  cases h with
  | nil => intro d hd; rw [tableRefsL] at hd; cases hd
  | cons h1 h2 =>
    intro d hd
    rw [tableRefsL, List.mem_append] at hd
    rcases hd with hd | hd
    · exact h1.table d hd
    · exact h2.tables d hd
end

theorem Uses.stands (hu : Uses env root S0 h0 cs S) {x : Elem} {c : Nat} (hc : (x, c) ∈ cs) : ∃ b, Stands S0 h0 x b := by
  induction hu with
  | start => cases hc
  | create _ _ hs _ _ ih =>
    rcases List.mem_cons.1 hc with e | hc
    · cases e
      exact ⟨_, hs⟩
    · exact ih hc
  | convert _ _ _ ih => exact ih hc
  | failed _ _ _ ih => exact ih hc
  | other _ _ ih => exact ih hc

theorem Marked.settles {x : Elem} {b : Nat} (hm : Marked x S) (hb : Stands S0 h0 x b) {ks : List (Elem × M Str)} {H : Heap}
    (h : Stage env root S0 h0 cs S ks H) : Settles ks x H := by
  have hh : ∀ r, TableIn false x true r → Has H r := by
    intro r hr
    have h1 := h.dicts.get r (hb.table r (refs_of_tableIn hr))
    have h2 := hm r _ hr h1
    rw [← dictVal_mark] at h2
    exact dictVal_inj h2
  have q := quiet_toConv x hh
  refine ⟨fun k hk => ?_, fun k H' e => ?_⟩
  · obtain ⟨G, G', g1, _⟩ := h.hist.made x k hk
    exact (q.post G k (congrArg Prod.fst g1)).inv H rfl
  · refine ⟨?_, (q.post H k (congrArg Prod.fst e)).inv H rfl⟩
    have := q.inv H rfl
    rw [e] at this
    exact this

theorem Stage.marked {ks : List (Elem × M Str)} {H : Heap} (h : Stage env root S0 h0 cs S ks H) {v : Str} {d c : Nat} {es : List Elem}
    (hu : Uses env root S0 h0 cs S) (hc : (.mk c!"mtable" v d es, c) ∈ cs) : Marked (.mk c!"mtable" v d es) S := by
  obtain ⟨b, hb⟩ := hu.stands hc
  obtain ⟨k, hk, _⟩ := h.acts.find hc
  obtain ⟨G, G', g1, g2⟩ := h.hist.made _ k hk
  intro r D hr hD
  have h1 : S[r]? = some (.dict (dictVal (H.cells r))) := h.dicts.get r (hb.table r (refs_of_tableIn hr))
  have h2 := (table_marked g1 hr).marks g2
  rw [h1] at hD
  cases hD
  rw [← dictVal_mark]
  exact congrArg dictVal h2

/-- A use of the code base that changes nothing in the model changes nothing in the store. -/
theorem still_of {P : Nat → Prop} (hp : Held S0 h0 P S) {f : Func} {args : List Val} (ha : ∀ v ∈ args, ∃ a, v = .obj a ∧ P a)
    {v : Val} {S' : Store} (hg : Gives env f args S (.ok v S') ∨ Gives env f args S (.exc v S')) {H : Heap} (he : Ext S S')
    (hd : Dicts id (Described S0 h0) H S) (hd' : Dicts id (Described S0 h0) H S') {a : Nat} (hl : a < S.length) : S'[a]? = S[a]? := by
  by_cases hPa : P a
  · have ho : S[a]? = some S[a] := List.getElem?_eq_getElem hl
    rw [ho]
    generalize S[a] = o at ho
    cases o with
    | list vs => exact he.get ho rfl
    | inst c fs => exact he.get ho rfl
    | dict D =>
      have h1 := hp.dicts a D hPa ho
      have e1 : S'[a]? = some (.dict (dictVal (H.cells a))) := hd'.get a h1
      have e2 : S[a]? = some (.dict (dictVal (H.cells a))) := hd.get a h1
      rw [e1, ← ho, e2]
  · obtain ⟨ρ, Sc, h1, h2⟩ := part_of S P hp.lt hp.refs
    have hargs : ∃ args', VRels ρ args' args := by
      clear hg
      induction args with
      | nil => exact ⟨[], .nil⟩
      | cons v vs ih =>
        obtain ⟨vs', hvs⟩ := ih fun w hw => ha w (List.mem_cons_of_mem _ hw)
        obtain ⟨b, rfl, hb⟩ := ha v List.mem_cons_self
        obtain ⟨i, hi⟩ := List.getElem?_of_mem ((h2 b).2 hb)
        exact ⟨.obj i :: vs', .cons (.obj hi) hvs⟩
    obtain ⟨args', hargs⟩ := hargs
    have hna : a ∉ ρ := fun h => hPa ((h2 a).1 h)
    rcases hg with ⟨k, hk⟩ | ⟨k, hk⟩
    · have := alike_call env k f hargs h1
      rw [hk k (Nat.le_refl k)] at this
      generalize call env k f args' [] Sc = r at this
      cases this with
      | ok m _ _ => exact m.keep a hl hna
    · have := alike_call env k f hargs h1
      rw [hk k (Nat.le_refl k)] at this
      generalize call env k f args' [] Sc = r at this
      cases this with
      | exc m _ _ => exact m.keep a hl hna

theorem still_render {P : Nat → Prop} (hp : Held S0 h0 P S) {ks : List (Elem × M Str)} {H : Heap} (h : Stage env root S0 h0 cs S ks H)
    {x : Elem} (hx : Settles ks x H) {c : Nat} (hc : (x, c) ∈ cs) (hPc : P c) : Still env renderCode [.obj c] S := by
  obtain ⟨k, S', hk, ⟨v, g⟩, he, h'⟩ := h.render hc
  refine ⟨v, S', g, fun a ha => still_of hp (fun v hv => ?_) g he h.dicts ?_ ha⟩
  · exact ⟨c, List.mem_singleton.1 hv, hPc⟩
  · have := h'.dicts
    rwa [hx.1 k hk] at this

theorem run_use {N : Nat → Prop} {H : Heap} {x : Elem} {ad a : Nat}
    (h1 : S[ad]? = some (.inst .MathMLElementToLatexConverterAdapter [])) (hi : IsElem id N S x a) (hd : Dicts id N H S) :
    ∃ S1 H1 act r, toConv x H = (.ok act, H1) ∧ Ext S S1 ∧ Dicts id N H1 S1 ∧ Gives env useCode [.obj ad, .obj a] S r ∧
      Agrees id N S1 (act H1) r := by
  obtain ⟨name, value, r, cs⟩ := x
  unfold IsElem at hi
  obtain ⟨hr, la, as, h2, h3, h4⟩ := hi
  have he := Ext.app S (choiceObjs ad name)
  have hat : At id N H (S ++ choiceObjs ad name) ad a name value r cs la as :=
    ⟨look_old _ h1, look_old _ h2, look_old _ h3, hr, h4.mono he, hd.app _⟩
  obtain ⟨_, ⟨c, S1, H1, act, cls, f, fs, rfl, m1, m2, m3, m4, m5, m6, m7, m9, m8⟩, hk⟩ :=
    made_known (env := env) hat
  have hch := run_choice h1 h2 hk
  obtain ⟨r, h7, k, hk'⟩ := (m8 S1 H1 (.refl _) m9).runs
  refine ⟨S1, H1, act, r, by rw [toConv]; exact m1, he.trans m2, m9, ⟨2 * deeps cs + 13 + k, fun n hn => ?_⟩, h7⟩
  obtain ⟨n, rfl⟩ : ∃ m, n = m + 1 := ⟨n - 1, by omega⟩
  replace hch := hch n (by omega)
  replace hk' := hk' n (by omega)
  rcases h7 with ⟨s, H', h', _, rfl, _⟩ | ⟨e, H', v, h', _, rfl, _⟩
  · dsimp only at hk'
    sym [useCode] [h1, hch, m3, m4, m5, m7, hk']
  · dsimp only at hk'
    sym [useCode] [h1, hch, m3, m4, m5, m7, hk']

theorem still_use {P : Nat → Prop} (hp : Held S0 h0 P S) {ks : List (Elem × M Str)} {H : Heap} (h : Stage env root S0 h0 cs S ks H)
    {x : Elem} (hx : Settles ks x H) {ad b : Nat} (hb : Stands S0 h0 x b) (had : S[ad]? = some (.inst .MathMLElementToLatexConverterAdapter []))
    (hPb : P b) (hPad : P ad) : Still env useCode [.obj ad, .obj b] S := by
  obtain ⟨S1, H1, act, r, g1, g2, g3, g4, g5⟩ := run_use (env := env) had (hb.isElem.mono h.ext) h.dicts
  obtain ⟨rfl, e2⟩ := hx.2 _ _ g1
  have hargs : ∀ v ∈ [Val.obj ad, .obj b], ∃ a, v = .obj a ∧ P a := by
    intro v hv
    simp only [List.mem_cons, List.not_mem_nil, or_false] at hv
    rcases hv with rfl | rfl
    · exact ⟨_, rfl, hPad⟩
    · exact ⟨_, rfl, hPb⟩
  obtain ⟨S', s1, s2, ⟨s, _, rfl⟩ | ⟨_, v, _, rfl, _⟩⟩ := g5.state
  · rw [e2] at s2
    exact ⟨_, S', .inl g4, fun a ha => still_of hp hargs (.inl g4) (g2.trans s1) h.dicts s2 ha⟩
  · rw [e2] at s2
    exact ⟨_, S', .inr g4, fun a ha => still_of hp hargs (.inr g4) (g2.trans s1) h.dicts s2 ha⟩
end

/-! ## The claims -/

section
variable {env : Env} {root : Elem} {S0 : Store} {h0 : Heap} {x : Elem} {cs : List (Elem × Nat)} {S : Store} {P : Nat → Prop}

/-- **C93** Once an element has been converted, with or without success, and whatever has been done with the tree since, a converter of the element
changes nothing when it is called. -/
theorem C93_converter (h : Rendered env root S0 h0 x cs S) (hp : Held S0 h0 P S) {c : Nat} (hc : (x, c) ∈ cs) (hPc : P c) :
    Still env renderCode [.obj c] S := by
  obtain ⟨ks, H, hs, hx⟩ := h.settles
  exact still_render hp hs hx hc hPc

/-- **C93** Nor does a new conversion of the element. -/
theorem C93_element (h : Rendered env root S0 h0 x cs S) (hp : Held S0 h0 P S) {ad b : Nat} (hb : Stands S0 h0 x b)
    (had : S[ad]? = some (.inst .MathMLElementToLatexConverterAdapter [])) (hPb : P b) (hPad : P ad) :
    Still env useCode [.obj ad, .obj b] S := by
  obtain ⟨ks, H, hs, hx⟩ := h.settles
  exact still_use hp hs hx hb had hPb hPad

/-- **C93** The same if all tables inside tables of the element have the mark, or there are none. -/
theorem C93_marked (hu : Uses env root S0 h0 cs S) (hm : Marked x S) (hp : Held S0 h0 P S) :
    (∀ {c : Nat}, (x, c) ∈ cs → P c → Still env renderCode [.obj c] S) ∧
    ∀ {ad b : Nat}, Stands S0 h0 x b → S[ad]? = some (.inst .MathMLElementToLatexConverterAdapter []) → P b → P ad →
      Still env useCode [.obj ad, .obj b] S := by
  obtain ⟨ks, H, hs⟩ := hu.stage
  refine ⟨fun hc hPc => ?_, fun hb had hPb hPad => still_use hp hs (hm.settles hb hs) hb had hPb hPad⟩
  obtain ⟨b, hb⟩ := hu.stands hc
  exact still_render hp hs (hm.settles hb hs) hc hPc

/-- **C93** They have, as soon as a converter has been created for a table; it need not have been called. -/
theorem C93_table (hu : Uses env root S0 h0 cs S) {v : Str} {d c : Nat} {es : List Elem} (hc : (.mk c!"mtable" v d es, c) ∈ cs) :
    Marked (.mk c!"mtable" v d es) S := by
  obtain ⟨ks, H, hs⟩ := hu.stage
  exact hs.marked hu hc
end

/-- **C93** A tree that refers to nothing but itself is held by its objects, also later. -/
theorem C93_held {env : Env} {root : Elem} {S0 : Store} {h0 : Heap} {cs : List (Elem × Nat)} {S : Store} {P : Nat → Prop}
    (hp : Held S0 h0 P S0) (hu : Uses env root S0 h0 cs S) : Held S0 h0 P S := by
  obtain ⟨ks, H, hs⟩ := hu.stage
  have key : ∀ a o, P a → S[a]? = some o → S0[a]? = some o ∨ ∃ A, o = .dict (dictVal A) ∧ Described S0 h0 a := by
    intro a o ha ho
    have hlt := hp.lt a ha
    have h1 : S0[a]? = some S0[a] := List.getElem?_eq_getElem (hp.lt a ha)
    generalize S0[a] = o0 at h1
    cases o0 with
    | list vs => left; rw [h1, ← ho, hs.ext.get h1 rfl]
    | inst c fs => left; rw [h1, ← ho, hs.ext.get h1 rfl]
    | dict D =>
      right
      have h2 := hp.dicts a D ha h1
      have h3 : S[a]? = some (.dict (dictVal (H.cells a))) := hs.dicts.get a h2
      rw [h3] at ho
      cases ho
      exact ⟨_, rfl, h2⟩
  refine ⟨⟨fun a ha => Nat.lt_of_lt_of_le (hp.lt a ha) hs.ext.length, fun a o ha ho => ?_⟩, fun d D hd hD => ?_⟩
  · rcases key a o ha ho with h | ⟨A, rfl, _⟩
    · exact hp.refs a o ha h
    · intro p hp
      obtain ⟨q, _, rfl⟩ := List.mem_map.1 hp
      trivial
  · rcases key d _ hd hD with h | ⟨A, _, h⟩
    · exact hp.dicts d D hd h
    · exact h

/-! ## Examples -/

/-- An adapter, and a table in a table. -/
def shelf : Store :=
  [.inst .MathMLElementToLatexConverterAdapter [], .dict [], .list [],
   .inst .GenericMathMLElement [(._name, .str c!"mtable"), (._value, .str []), (._children, .obj 2), (._attributes, .obj 1)],
   .dict [], .list [.obj 3],
   .inst .GenericMathMLElement [(._name, .str c!"mtable"), (._value, .str []), (._children, .obj 5), (._attributes, .obj 4)]]

/-- The same after a converter has been created. -/
def shelf' : Store :=
  [.inst .MathMLElementToLatexConverterAdapter [], .dict [(c!"innerTable", .str c!"innerTable")], .list [],
   .inst .GenericMathMLElement [(._name, .str c!"mtable"), (._value, .str []), (._children, .obj 2), (._attributes, .obj 1)],
   .dict [], .list [.obj 3],
   .inst .GenericMathMLElement [(._name, .str c!"mtable"), (._value, .str []), (._children, .obj 5), (._attributes, .obj 4)],
   .dict (convDict 0),
   .inst .MTable [(._math_element, .obj 6), (._adapter, .obj 0)]]

theorem shelf_create (env : Env) : Gives env createCode [.obj 0, .obj 6] shelf (.ok (.obj 8) shelf') := by
  refine ⟨20, fun n hn => ?_⟩
  obtain ⟨n, rfl⟩ : ∃ m, n = m + 20 := ⟨n - 20, by omega⟩
  rfl

/-- The table as an element. -/
def shelfElem : Elem := .mk c!"mtable" [] 4 [.mk c!"mtable" [] 1 []]

theorem shelf_stands : Stands shelf Heap.empty shelfElem 6 :=
  .mk (as := [3]) rfl rfl rfl (.cons (.mk (as := []) rfl rfl rfl .nil) .nil)

theorem shelf_held : Held shelf Heap.empty (· < 7) shelf where
  lt := fun a h => h
  refs := by
    intro a o ha ho
    match a, ho with
    | 0, ho | 1, ho | 2, ho | 3, ho | 4, ho | 5, ho | 6, ho => cases ho; simp [OwnO, OwnV]
    | n + 7, _ => omega
  dicts := by
    intro d D hd hD
    match d, hD with
    | 1, _ | 4, _ => exact rfl
    | 0, h | 2, h | 3, h | 5, h | 6, h => cases h
    | n + 7, _ => omega

theorem shelf_held' : Held shelf Heap.empty (fun a => a < 7 ∨ a = 8) shelf' where
  lt := fun a h => by simp only [shelf', List.length_cons, List.length_nil]; omega
  refs := by
    intro a o ha ho
    match a, ho with
    | 0, ho | 1, ho | 2, ho | 3, ho | 4, ho | 5, ho | 6, ho | 8, ho => cases ho; simp [OwnO, OwnV]
    | 7, _ => omega
    | n + 9, _ => omega
  dicts := by
    intro d D hd hD
    match d, hD with
    | 1, _ | 4, _ => exact rfl
    | 0, h | 2, h | 3, h | 5, h | 6, h | 8, h => cases h
    | 7, _ => omega
    | n + 9, _ => omega

theorem shelf_uses (env : Env) : Uses env shelfElem shelf Heap.empty [(shelfElem, 8)] shelf' :=
  .create .start .self shelf_stands rfl (shelf_create env)

/-- Creating a converter for the outer table changes the inner one; calling it then changes nothing, nor does another conversion. -/
example (env : Env) : shelf'[1]? ≠ shelf[1]? ∧ Still env renderCode [.obj 8] shelf' ∧ Still env useCode [.obj 0, .obj 6] shelf' := by
  have h := C93_marked (shelf_uses env) (C93_table (shelf_uses env) List.mem_cons_self) shelf_held'
  exact ⟨(by intro h; cases h), h.1 List.mem_cons_self (.inr rfl), h.2 shelf_stands rfl (.inl (by decide)) (.inl (by decide))⟩

/-- A conversion of the outer table, and another one. -/
example (env : Env) : ∃ S, Rendered env shelfElem shelf Heap.empty shelfElem [(shelfElem, 8)] S ∧ Held shelf Heap.empty (· < 7) S ∧
    Still env useCode [.obj 0, .obj 6] S ∧ ¬ Still env useCode [.obj 0, .obj 6] shelf := by
  have hu := shelf_uses env
  obtain ⟨ks, H, hs⟩ := hu.stage
  obtain ⟨k, S, hk, ⟨v, g⟩, he, _⟩ := hs.render (c := 8) List.mem_cons_self
  have hr : Rendered env shelfElem shelf Heap.empty shelfElem [(shelfElem, 8)] S := ⟨_, _, 8, v, S, hu, List.mem_cons_self, g, .now⟩
  have hh := C93_held shelf_held hr.uses
  have had : S[0]? = some (.inst .MathMLElementToLatexConverterAdapter []) := he.get (h := shelf') rfl rfl
  refine ⟨S, hr, hh, C93_element hr hh shelf_stands had (by decide) (by decide), ?_⟩
  rintro ⟨v, S', g, hS⟩
  have h1 := hS 1 (by decide)
  obtain ⟨S1, H1, act, r, g1, g2, g3, g4, g5⟩ := run_use (env := env) (ad := 0) rfl shelf_stands.isElem (described shelf Heap.empty)
  have hc : convertElem shelfElem Heap.empty = act H1 := by
    unfold convertElem
    rw [Verif.run_bind, g1]
  have h2 : ((convertElem shelfElem Heap.empty).2.cells 1) = [(c!"innerTable", c!"innerTable")] := by decide +kernel
  rw [hc] at h2
  obtain ⟨S2, _, s2, ⟨s, _, rfl⟩ | ⟨_, w, _, rfl, _⟩⟩ := g5.state
  · cases end_unique g (.inl g4)
    have h3 : S'[1]? = some (.dict (dictVal ((act H1).2.cells 1))) := s2.get 1 rfl
    rw [h2, h1] at h3
    cases h3
  · cases end_unique g (.inr g4)
    have h3 : S'[1]? = some (.dict (dictVal ((act H1).2.cells 1))) := s2.get 1 rfl
    rw [h2, h1] at h3
    cases h3

end Verif.Src
