import Verif.Props.Byhand
import Verif.Props.Interleave
import Verif.Source.Part

/-!
# Elements and converters among other objects (C86)

As in C84 a program uses elements and converters piece by piece.  Here other code may
do whatever it likes with all other objects in the meantime, also with instances and lists.
-/

namespace Verif.Src
open Spec

/-- `def fresh(child): return MathMLElementToLatexConverterAdapter().to_latex_converter(child)` -/
def freshCode : Func :=
  ⟨[(.child, none)],
   [.ret (.call (.attr (.call (.name .MathMLElementToLatexConverterAdapter) [] [] []) .to_latex_converter)
     [.name .child] [] [])]⟩

/-- The objects in `P` exist and refer to each other only. -/
structure Enclosed (S : Store) (P : Nat → Prop) : Prop where
  lt : ∀ a, P a → a < S.length
  refs : ∀ a o, P a → S[a]? = some o → OwnO P o

/-- The objects in `P` and those made on the way from `S` to `S'`. -/
def grown (P : Nat → Prop) (S S' : Store) (a : Nat) : Prop := P a ∨ S.length ≤ a ∧ a < S'.length

/-- What may have happened to a tree of elements that stands in the store `S0`, where `mine` are the
objects that belong to it: converters have been created for elements of the tree, by an adapter that
belongs to it or by a new one; `convert` has been called on some of these converters, any number of
times in any order, with or without success; and other code has made objects and changed objects, but none of
ours.  The state consists of the converters in existence, each with its element, of our objects,
and of the store. -/
inductive Among (env : Env) (root : Elem) (S0 : Store) (h0 : Heap) (mine : Nat → Prop) :
    List (Elem × Nat) → (Nat → Prop) → Store → Prop
  | start : Among env root S0 h0 mine [] mine S0
  | create {ks P S x b ad c S'} : Among env root S0 h0 mine ks P S → Within x root → Stands S0 h0 x b → mine b →
      mine ad → S0[ad]? = some (.inst .MathMLElementToLatexConverterAdapter []) →
      Gives env createCode [.obj ad, .obj b] S (.ok (.obj c) S') →
      Among env root S0 h0 mine ((x, c) :: ks) (grown P S S') S'
  | fresh {ks P S x b c S'} : Among env root S0 h0 mine ks P S → Within x root → Stands S0 h0 x b → mine b →
      Gives env freshCode [.obj b] S (.ok (.obj c) S') →
      Among env root S0 h0 mine ((x, c) :: ks) (grown P S S') S'
  | convert {ks P S x c v S'} : Among env root S0 h0 mine ks P S → (x, c) ∈ ks →
      Gives env renderCode [.obj c] S (.ok v S') → Among env root S0 h0 mine ks (grown P S S') S'
  | failed {ks P S x c v S'} : Among env root S0 h0 mine ks P S → (x, c) ∈ ks →
      Gives env renderCode [.obj c] S (.exc v S') → Among env root S0 h0 mine ks (grown P S S') S'
  | other {ks P S S'} : Among env root S0 h0 mine ks P S → S.length ≤ S'.length → (∀ a : Nat, P a → S'[a]? = S[a]?) →
      Among env root S0 h0 mine ks P S'

/-! ## The same tree at other addresses -/

mutual
/-- The element with other dictionaries. -/
def moved (g : Nat → Nat) : Elem → Elem
  | .mk n v r cs => .mk n v (g r) (movedL g cs)
/-- The elements with other dictionaries. -/
def movedL (g : Nat → Nat) : List Elem → List Elem
  | [] => []
  | e :: es => moved g e :: movedL g es
end

theorem movedL_mem {g : Nat → Nat} {c : Elem} : ∀ {cs : List Elem}, c ∈ cs → moved g c ∈ movedL g cs
  | e :: es, h => by
    rw [movedL]
    rcases List.mem_cons.1 h with rfl | h
    · exact List.mem_cons_self
    · exact List.mem_cons_of_mem _ (movedL_mem h)

theorem mem_movedL {g : Nat → Nat} {c : Elem} : ∀ {cs : List Elem}, c ∈ movedL g cs → ∃ c' ∈ cs, c = moved g c'
  | [], h => by rw [movedL] at h; cases h
  | e :: es, h => by
    rw [movedL] at h
    rcases List.mem_cons.1 h with rfl | h
    · exact ⟨e, List.mem_cons_self, rfl⟩
    · obtain ⟨c', h1, h2⟩ := mem_movedL h
      exact ⟨c', List.mem_cons_of_mem _ h1, h2⟩

theorem within_moved (g : Nat → Nat) {x root : Elem} (h : Within x root) : Within (moved g x) (moved g root) := by
  induction h with
  | self => exact .self
  | @child e c e' hc _ ih =>
    obtain ⟨n, v, r, cs⟩ := e
    refine .child ?_ ih
    rw [moved]
    exact movedL_mem hc

mutual
/-- The dictionaries of the elements. -/
def dicts : Elem → List Nat
  | .mk _ _ r cs => r :: dictsL cs
/-- The dictionaries of the elements of a list. -/
def dictsL : List Elem → List Nat
  | [] => []
  | e :: es => dicts e ++ dictsL es
end

theorem dicts_child {c : Elem} {d : Nat} : ∀ {cs : List Elem}, c ∈ cs → d ∈ dicts c → d ∈ dictsL cs
  | e :: es, h, hd => by
    rw [dictsL, List.mem_append]
    rcases List.mem_cons.1 h with rfl | h
    · exact .inl hd
    · exact .inr (dicts_child h hd)

theorem tableIn_moved {g : Nat → Nat} {b b' : Bool} {e : Elem} {d : Nat} (h : TableIn b (moved g e) b' d) :
    ∃ r, d = g r ∧ r ∈ dicts e ∧ TableIn b e b' r := by
  generalize he : moved g e = e' at h
  induction h generalizing e with
  | here =>
    obtain ⟨n, v, r, cs⟩ := e
    rw [moved] at he
    cases he
    exact ⟨r, rfl, by rw [dicts]; exact List.mem_cons_self, .here⟩
  | inTable hc _ ih =>
    obtain ⟨n, v, r, cs⟩ := e
    rw [moved] at he
    cases he
    obtain ⟨c', h1, h2⟩ := mem_movedL hc
    obtain ⟨r', h3, h4, h5⟩ := ih h2.symm
    exact ⟨r', h3, by rw [dicts]; exact List.mem_cons_of_mem _ (dicts_child h1 h4), .inTable h1 h5⟩
  | inOther hn hc _ ih =>
    obtain ⟨n, v, r, cs⟩ := e
    rw [moved] at he
    cases he
    obtain ⟨c', h1, h2⟩ := mem_movedL hc
    obtain ⟨r', h3, h4, h5⟩ := ih h2.symm
    exact ⟨r', h3, by rw [dicts]; exact List.mem_cons_of_mem _ (dicts_child h1 h4), .inOther hn h1 h5⟩

theorem unshared_moved {g : Nat → Nat} {e : Elem} (hg : ∀ r ∈ dicts e, ∀ s ∈ dicts e, g r = g s → r = s)
    (h : Unshared e) : Unshared (moved g e) := by
  intro d h1 h2
  obtain ⟨r, rfl, m1, t1⟩ := tableIn_moved h1
  obtain ⟨s, e', m2, t2⟩ := tableIn_moved h2
  cases hg r m1 s m2 e'
  exact h r t1 t2

mutual
theorem sameTree_moved {g : Nat → Nat} {h h' : Heap} : ∀ (e : Elem), (∀ r ∈ dicts e, h.cells (g r) = h'.cells r) →
    SameTree h h' (moved g e) e
  | .mk n v r cs, H => by
    rw [moved]
    rw [dicts] at H
    exact .mk (H r List.mem_cons_self) (sameTrees_moved cs fun s hs => H s (List.mem_cons_of_mem _ hs))
theorem sameTrees_moved {g : Nat → Nat} {h h' : Heap} : ∀ (es : List Elem), (∀ r ∈ dictsL es, h.cells (g r) = h'.cells r) →
    SameTrees h h' (movedL g es) es
  | [], _ => by rw [movedL]; exact .nil
  | e :: es, H => by
    rw [movedL]
    rw [dictsL] at H
    exact .cons (sameTree_moved e fun r hr => H r (List.mem_append_left _ hr))
      (sameTrees_moved es fun r hr => H r (List.mem_append_right _ hr))
end

mutual
theorem Stands.dicts {S : Store} {h : Heap} {P : Nat → Prop} (hP : ∀ a o, P a → S[a]? = some o → OwnO P o)
    {x : Elem} {a : Nat} (H : Stands S h x a) (ha : P a) : ∀ d ∈ dicts x, P d := by
  cases H with
  | mk h1 h2 h3 h4 =>
    have o1 := hP _ _ ha h1
    have hd := (o1 _ (.tail _ (.tail _ (.tail _ (.head _))))).addr
    have hl := (o1 _ (.tail _ (.tail _ (.head _)))).addr
    intro d hm
    rw [Verif.Src.dicts] at hm
    rcases List.mem_cons.1 hm with rfl | hm
    · exact hd
    · exact h4.dicts hP (fun a ha => (hP _ _ hl h2 _ (List.mem_map_of_mem ha)).addr) d hm
theorem Stand.dicts {S : Store} {h : Heap} {P : Nat → Prop} (hP : ∀ a o, P a → S[a]? = some o → OwnO P o)
    {xs : List Elem} {as : List Nat} (H : Stand S h xs as) (ha : ∀ a ∈ as, P a) : ∀ d ∈ dictsL xs, P d := by
  cases H with
  | nil => intro d hm; rw [dictsL] at hm; cases hm
  | cons h1 h2 =>
    intro d hm
    rw [dictsL, List.mem_append] at hm
    rcases hm with hm | hm
    · exact h1.dicts hP (ha _ List.mem_cons_self) d hm
    · exact h2.dicts hP (fun a h => ha a (List.mem_cons_of_mem _ h)) d hm
end

theorem prel_strs {κ : Type} {ρ : List Nat} : ∀ {A : List (κ × Str)} {l : List (κ × Val)},
    PRel ρ l (A.map fun p => (p.1, .str p.2)) → l = A.map fun p => (p.1, .str p.2)
  | [], _, h => by cases h; rfl
  | (k, s) :: A, _, h => by
    cases h with
    | cons hv h =>
      cases hv
      rw [prel_strs h]
      rfl

/-- The addresses in the two stores. -/
inductive Places (ρ : List Nat) : List Nat → List Nat → Prop
  | nil : Places ρ [] []
  | cons {i a is as} : ρ[i]? = some a → Places ρ is as → Places ρ (i :: is) (a :: as)

theorem vrels_objs {ρ : List Nat} : ∀ {as : List Nat} {vs : List Val}, VRels ρ vs (as.map .obj) →
    ∃ is : List Nat, vs = is.map .obj ∧ Places ρ is as
  | [], _, h => by cases h; exact ⟨[], rfl, .nil⟩
  | a :: as, _, h => by
    cases h with
    | cons hv h =>
      obtain ⟨is, rfl, h2⟩ := vrels_objs h
      cases hv with
      | obj hi => exact ⟨_ :: is, rfl, .cons hi h2⟩
      | same hp => cases hp

section
variable {ρ : List Nat} {S S' : Store} {h : Heap} {g : Nat → Nat} (hs : SRel ρ S' S)
  (hg : ∀ a ∈ ρ, ρ[g a]? = some a)
include hs hg

theorem SRel.index {i a : Nat} (hi : ρ[i]? = some a) : i = g a := by
  have h1 := hg a (List.mem_of_getElem? hi)
  obtain ⟨l1, e1⟩ := List.getElem?_eq_some_iff.1 hi
  obtain ⟨l2, e2⟩ := List.getElem?_eq_some_iff.1 h1
  have hn := List.pairwise_iff_getElem.1 hs.nodup
  rcases Nat.lt_trichotomy i (g a) with h | h | h
  · exact absurd (e1.trans e2.symm) (hn i (g a) l1 l2 h)
  · exact h
  · exact absurd (e2.trans e1.symm) (hn (g a) i l2 l1 h)

mutual
/-- The tree stands in the part. -/
theorem Stands.part {x : Elem} {a i : Nat} (H : Stands S h x a) (hi : ρ[i]? = some a) :
    Stands S' ⟨0, fun i => h.cells (ρ[i]?.getD 0)⟩ (moved g x) i := by
  cases H with
  | mk h1 h2 h3 h4 =>
    obtain ⟨o, o', p1, p2, p3⟩ := hs.read hi
    rw [h1] at p2
    cases p2
    cases p3 with
    | inst q =>
      cases q with
      | cons v1 q =>
        cases v1
        cases q with
        | cons v2 q =>
          cases v2
          cases q with
          | cons v3 q =>
            cases q with
            | cons v4 q =>
              cases q
              cases v3 with
              | same hp => cases hp
              | obj hla =>
                cases v4 with
                | same hp => cases hp
                | obj hd =>
                  rw [moved]
                  obtain ⟨ol, ol', l1, l2, l3⟩ := hs.read hla
                  rw [h2] at l2
                  cases l2
                  obtain ⟨od, od', d1, d2, d3⟩ := hs.read hd
                  rw [h3] at d2
                  cases d2
                  cases l3 with
                  | list l3 =>
                    obtain ⟨is, rfl, l4⟩ := vrels_objs l3
                    cases d3 with
                    | dict d3 =>
                      cases hs.index hg hd
                      refine .mk p1 l1 ?_ (h4.part l4)
                      rw [d1, prel_strs d3]
                      simp only [hd, Option.getD_some]
theorem Stand.part {xs : List Elem} {as is : List Nat} (H : Stand S h xs as) (hi : Places ρ is as) :
    Stand S' ⟨0, fun i => h.cells (ρ[i]?.getD 0)⟩ (movedL g xs) is := by
  cases H with
  | nil => cases hi; rw [movedL]; exact .nil
  | cons h1 h2 =>
    cases hi with
    | cons i1 i2 =>
      rw [movedL]
      exact .cons (h1.part i1) (h2.part i2)
end
end

/-! ## The invariant -/

/-- The converters of the two stores. -/
inductive Pairs (ρ : List Nat) (g : Nat → Nat) : List (Elem × Nat) → List (Elem × Nat) → Prop
  | nil : Pairs ρ g [] []
  | cons {x i c ks' ks} : ρ[i]? = some c → Pairs ρ g ks' ks → Pairs ρ g ((moved g x, i) :: ks') ((x, c) :: ks)

theorem Pairs.mono {ρ ρ' : List Nat} {g : Nat → Nat} (hp : ρ <+: ρ') {ks' ks : List (Elem × Nat)} (h : Pairs ρ g ks' ks) :
    Pairs ρ' g ks' ks := by
  induction h with
  | nil => exact .nil
  | cons hi _ ih => exact .cons (get_prefix hp hi) ih

theorem Pairs.find {ρ : List Nat} {g : Nat → Nat} {ks' ks : List (Elem × Nat)} (h : Pairs ρ g ks' ks) {x : Elem} {c : Nat}
    (hc : (x, c) ∈ ks) : ∃ i, (moved g x, i) ∈ ks' ∧ ρ[i]? = some c := by
  induction h with
  | nil => cases hc
  | cons hi _ ih =>
    rcases List.mem_cons.1 hc with e | hc
    · cases e
      exact ⟨_, List.mem_cons_self, hi⟩
    · obtain ⟨i, h1, h2⟩ := ih hc
      exact ⟨i, List.mem_cons_of_mem _ h1, h2⟩

theorem gives_part {env : Env} {f : Func} {args args' : List Val} {ρ : List Nat} {S S' : Store} {r : Res Val}
    (ha : VRels ρ args' args) (hs : SRel ρ S' S) (hg : Gives env f args S r) (hr : r ≠ .stuck) :
    ∃ r', Gives env f args' S' r' ∧ Alike ρ S r' r := by
  obtain ⟨k, hk⟩ := hg
  have h1 := alike_call env k f ha hs
  rw [hk k (Nat.le_refl k)] at h1
  refine ⟨_, ⟨k, fun n hn => call_mono (fun e => ?_) hn⟩, h1⟩
  rw [e] at h1
  cases h1
  exact hr rfl

theorem gives_whole {env : Env} {f : Func} {args args' : List Val} {ρ : List Nat} {S S' : Store} {r' : Res Val}
    (ha : VRels ρ args' args) (hs : SRel ρ S' S) (hg : Gives env f args' S' r') (hr : r' ≠ .stuck) :
    ∃ r, Gives env f args S r ∧ Alike ρ S r' r := by
  obtain ⟨k, hk⟩ := hg
  have h1 := alike_call env k f ha hs
  rw [hk k (Nat.le_refl k)] at h1
  refine ⟨_, ⟨k, fun n hn => call_mono (fun e => ?_) hn⟩, h1⟩
  rw [e] at h1
  cases h1
  exact hr rfl

theorem fresh_iff {env : Env} {S : Store} {b : Nat} {r : Res Val} : Gives env freshCode [.obj b] S r ↔
    Gives env createCode [.obj S.length, .obj b] (S ++ [.inst .MathMLElementToLatexConverterAdapter []]) r := by
  have key : ∀ n, call env (n + 1) freshCode [.obj b] [] S =
      call env (n + 1) createCode [.obj S.length, .obj b] [] (S ++ [.inst .MathMLElementToLatexConverterAdapter []]) := by
    intro n
    generalize hr : call env n MathMLElementToLatexConverterAdapter_to_latex_converter [.obj S.length, .obj b] []
      (S ++ [.inst .MathMLElementToLatexConverterAdapter []]) = r
    cases r with
    | ok v h =>
      rw [show call env (n + 1) createCode [.obj S.length, .obj b] [] (S ++ [.inst .MathMLElementToLatexConverterAdapter []]) = .ok v h by
        sym [createCode] [hr]]
      sym [freshCode] [hr]
    | exc v h =>
      rw [show call env (n + 1) createCode [.obj S.length, .obj b] [] (S ++ [.inst .MathMLElementToLatexConverterAdapter []]) = .exc v h by
        sym [createCode] [hr]]
      sym [freshCode] [hr]
    | stuck =>
      rw [show call env (n + 1) createCode [.obj S.length, .obj b] [] (S ++ [.inst .MathMLElementToLatexConverterAdapter []]) = .stuck by
        sym [createCode] [hr]]
      sym [freshCode] [hr]
  constructor
  · rintro ⟨k, hk⟩
    refine ⟨k + 1, fun n hn => ?_⟩
    obtain ⟨n, rfl⟩ : ∃ m, n = m + 1 := ⟨n - 1, by omega⟩
    rw [← key, hk _ (by omega)]
  · rintro ⟨k, hk⟩
    refine ⟨k + 1, fun n hn => ?_⟩
    obtain ⟨n, rfl⟩ : ∃ m, n = m + 1 := ⟨n - 1, by omega⟩
    rw [key, hk _ (by omega)]

theorem uses_fresh {env : Env} {root x : Elem} {S0 S S' : Store} {h0 : Heap} {ks : List (Elem × Nat)} {b c : Nat}
    (hu : Uses env root S0 h0 ks S) (hw : Within x root) (hx : Stands S0 h0 x b)
    (hg : Gives env freshCode [.obj b] S (.ok (.obj c) S')) : Uses env root S0 h0 ((x, c) :: ks) S' := by
  refine .create (ad := S.length) (.other (S' := S ++ [.inst .MathMLElementToLatexConverterAdapter []]) hu ⟨by simp, fun a o ha _ => look_old _ ha, fun d hd => ?_⟩)
    hw hx (look_last _ rfl) (fresh_iff.1 hg)
  obtain ⟨ks, H, h1, h2, h3, h4⟩ := hu.history
  have := h3.get d hd
  dsimp only [id] at this
  rw [this]
  exact look_old _ this

theorem Alike.moves {ρ : List Nat} {S : Store} {r : Res Val} {v' : Val} {h' : Store}
    (h : Alike ρ S r (.ok v' h')) : ∃ ρ' v h, r = .ok v h ∧ Moves ρ ρ' S h' ∧ SRel ρ' h h' ∧ VRel ρ' v v' := by
  cases h with
  | ok h1 h2 h3 => exact ⟨_, _, _, rfl, h1, h2, h3⟩

theorem Alike.moves_exc {ρ : List Nat} {S : Store} {r : Res Val} {v' : Val} {h' : Store}
    (h : Alike ρ S r (.exc v' h')) : ∃ ρ' v h, r = .exc v h ∧ Moves ρ ρ' S h' ∧ SRel ρ' h h' ∧ VRel ρ' v v' := by
  cases h with
  | exc h1 h2 h3 => exact ⟨_, _, _, rfl, h1, h2, h3⟩

theorem grown_of {ρ ρ' : List Nat} {P : Nat → Prop} {S S1 S' : Store} (hp : ∀ a ∈ ρ, P a) (m : Moves ρ ρ' S S')
    (hs : SRel ρ' S1 S') : ∀ a ∈ ρ', grown P S S' a := by
  intro a ha
  rcases m.fresh a ha with h | h
  · exact .inl (hp a h)
  · exact .inr ⟨h, hs.lt ha⟩

/-- What is known at any time. -/
structure Alone (env : Env) (root : Elem) (ρ0 : List Nat) (Sc0 : Store) (hc : Heap) (g : Nat → Nat)
    (ks : List (Elem × Nat)) (P : Nat → Prop) (S : Store) : Prop where
  ex : ∃ ρ Sc ks', ρ0 <+: ρ ∧ SRel ρ Sc S ∧ (∀ a ∈ ρ, P a) ∧ Uses env (moved g root) Sc0 hc ks' Sc ∧ Pairs ρ g ks' ks

theorem Among.alone {env : Env} {root : Elem} {S0 : Store} {h0 : Heap} {mine : Nat → Prop} {ks : List (Elem × Nat)}
    {P : Nat → Prop} {S : Store} (h : Among env root S0 h0 mine ks P S) {ρ0 : List Nat} {Sc0 : Store} {g : Nat → Nat}
    (hs : SRel ρ0 Sc0 S0) (hm : ∀ a, a ∈ ρ0 ↔ mine a) (hg : ∀ a ∈ ρ0, ρ0[g a]? = some a) :
    Alone env root ρ0 Sc0 ⟨0, fun i => h0.cells (ρ0[i]?.getD 0)⟩ g ks P S := by
  induction h with
  | start => exact ⟨ρ0, Sc0, [], List.prefix_refl _, hs, fun a ha => (hm a).1 ha, .start, .nil⟩
  | @create ks P S x b ad c S' _ hw hx hb hadm had hgv ih =>
    obtain ⟨ρ, Sc, ks', i1, i2, i3, i4, i5⟩ := ih
    have hb' := hg b ((hm b).2 hb)
    have ha' := hg ad ((hm ad).2 hadm)
    obtain ⟨r', g1, g2⟩ := gives_part (args' := [.obj (g ad), .obj (g b)])
      (.cons (.obj (get_prefix i1 ha')) (.cons (.obj (get_prefix i1 hb')) .nil)) i2 hgv (by intro e; cases e)
    obtain ⟨ρ', v, Sc', rfl, m1, m2, m3⟩ := g2.moves
    cases m3 with
    | same hp => cases hp
    | @obj ci _ hci =>
      obtain ⟨o, o', p1, p2, p3⟩ := hs.read ha'
      rw [had] at p2
      cases p2
      cases p3 with
      | inst p3 =>
        cases p3
        refine ⟨ρ', Sc', _, i1.trans m1.ext, m2, grown_of i3 m1 m2,
          .create i4 (within_moved g hw) (hx.part hs hg hb') (C84_leaves env _ _ _ _ _ i4 _ _ p1 rfl) g1, .cons hci (i5.mono m1.ext)⟩
  | @fresh ks P S x b c S' _ hw hx hb hgv ih =>
    obtain ⟨ρ, Sc, ks', i1, i2, i3, i4, i5⟩ := ih
    have hb' := hg b ((hm b).2 hb)
    obtain ⟨r', g1, g2⟩ := gives_part (args' := [.obj (g b)])
      (.cons (.obj (get_prefix i1 hb')) .nil) i2 hgv (by intro e; cases e)
    obtain ⟨ρ', v, Sc', rfl, m1, m2, m3⟩ := g2.moves
    cases m3 with
    | same hp => cases hp
    | @obj ci _ hci =>
      exact ⟨ρ', Sc', _, i1.trans m1.ext, m2, grown_of i3 m1 m2,
        uses_fresh i4 (within_moved g hw) (hx.part hs hg hb') g1, .cons hci (i5.mono m1.ext)⟩
  | @convert ks P S x c v S' _ hc hgv ih =>
    obtain ⟨ρ, Sc, ks', i1, i2, i3, i4, i5⟩ := ih
    obtain ⟨i, f1, f2⟩ := i5.find hc
    obtain ⟨r', g1, g2⟩ := gives_part (args' := [.obj i]) (.cons (.obj f2) .nil) i2 hgv (by intro e; cases e)
    obtain ⟨ρ', v, Sc', rfl, m1, m2, m3⟩ := g2.moves
    exact ⟨ρ', Sc', _, i1.trans m1.ext, m2, grown_of i3 m1 m2, .convert i4 f1 g1, i5.mono m1.ext⟩
  | @failed ks P S x c v S' _ hc hgv ih =>
    obtain ⟨ρ, Sc, ks', i1, i2, i3, i4, i5⟩ := ih
    obtain ⟨i, f1, f2⟩ := i5.find hc
    obtain ⟨r', g1, g2⟩ := gives_part (args' := [.obj i]) (.cons (.obj f2) .nil) i2 hgv (by intro e; cases e)
    obtain ⟨ρ', v, Sc', rfl, m1, m2, m3⟩ := g2.moves_exc
    exact ⟨ρ', Sc', _, i1.trans m1.ext, m2, grown_of i3 m1 m2, .failed i4 f1 g1, i5.mono m1.ext⟩
  | other _ hl hk ih =>
    obtain ⟨ρ, Sc, ks', i1, i2, i3, i4, i5⟩ := ih
    exact ⟨ρ, Sc, ks', i1, i2.same fun a ha => hk a (i3 a ha), i3, i4, i5⟩

/-- The tree on its own. -/
theorem tree_part {S0 : Store} {mine : Nat → Prop} (he : Enclosed S0 mine) :
    ∃ (ρ0 : List Nat) (Sc0 : Store) (g : Nat → Nat), SRel ρ0 Sc0 S0 ∧ (∀ a, a ∈ ρ0 ↔ mine a) ∧ ∀ a ∈ ρ0, ρ0[g a]? = some a := by
  obtain ⟨ρ0, Sc0, h1, h2⟩ := part_of S0 mine he.lt he.refs
  have : ∀ a : Nat, ∃ i : Nat, a ∈ ρ0 → ρ0[i]? = some a := by
    intro a
    by_cases ha : a ∈ ρ0
    · obtain ⟨i, hi⟩ := List.getElem?_of_mem ha
      exact ⟨i, fun _ => hi⟩
    · exact ⟨0, fun h => absurd h ha⟩
  exact ⟨ρ0, Sc0, fun a => (this a).choose, h1, h2, fun a ha => (this a).choose_spec ha⟩

theorem Seen.move {x : Except Exc Str} {ρ : List Nat} {S : Store} {r r' : Res Val} (h : Seen x r) (ha : Alike ρ S r r') :
    Seen x r' := by
  cases h with
  | ok s S1 =>
    cases ha with
    | ok _ _ hv => cases hv; exact .ok s _
  | exc hr =>
    cases ha with
    | exc _ hs hv => exact .exc (hr.move hv hs)

theorem Seen.not_stuck {x : Except Exc Str} (h : Seen x .stuck) : False := by cases h

/-! ## The claims -/

section
variable (env : Env) (root : Elem) (S0 S : Store) (h0 : Heap) (mine P : Nat → Prop) (cs : List (Elem × Nat))
  (he : Enclosed S0 mine) (hu : Among env root S0 h0 mine cs P S)
include he hu

/-- **C86** Creating a converter for an element of the tree always ends, and with a converter. -/
theorem C86_create (x : Elem) (b : Nat) (hs : Stands S0 h0 x b) (hb : mine b) :
    ∃ c S', Gives env freshCode [.obj b] S (.ok (.obj c) S') := by
  obtain ⟨ρ0, Sc0, g, h1, h2, h3⟩ := tree_part he
  obtain ⟨ρ, Sc, ks', i1, i2, i3, i4, i5⟩ := (hu.alone h1 h2 h3).ex
  have hb' := h3 b ((h2 b).2 hb)
  have i4' := Uses.other (S' := Sc ++ [.inst .MathMLElementToLatexConverterAdapter []]) i4 ⟨by simp, fun a o ha _ => look_old _ ha, fun d hd => by
    obtain ⟨ks, H, _, _, q3, _⟩ := i4.history
    have := q3.get d hd
    dsimp only [id] at this
    rw [this]
    exact look_old _ this⟩
  obtain ⟨c, Sc', hc⟩ := C84_create env _ _ _ _ _ i4' (moved g x) (g b) Sc.length (hs.part h1 h3 hb') (look_last _ rfl)
  obtain ⟨r, r1, r2⟩ := gives_whole (args := [.obj b]) (.cons (.obj (get_prefix i1 hb')) .nil) i2 (fresh_iff.2 hc) (by intro e; cases e)
  cases r2 with
  | ok _ _ hv =>
    cases hv with
    | obj _ => exact ⟨_, _, r1⟩
    | same hp => cases hp

/-- **C86** A converter for the root gives the LaTeX that the root has on its own, whatever has
been done with the tree, and with other objects, before. -/
theorem C86_root (hr : Unshared root) (a : Nat) (hs : Stands S0 h0 root a) (ha : mine a) (c : Nat)
    (hc : (root, c) ∈ cs) : ∃ r, Gives env renderCode [.obj c] S r ∧ Seen (convertElem root h0).1 r := by
  obtain ⟨ρ0, Sc0, g, h1, h2, h3⟩ := tree_part he
  obtain ⟨ρ, Sc, ks', i1, i2, i3, i4, i5⟩ := (hu.alone h1 h2 h3).ex
  obtain ⟨i, f1, f2⟩ := i5.find hc
  have hd := hs.dicts he.refs ha
  have hd' : ∀ r ∈ dicts root, ρ0[g r]? = some r := fun r hr => h3 r ((h2 r).2 (hd r hr))
  have hun : Unshared (moved g root) := unshared_moved (fun r hr s hs e => by
    have h1 := hd' r hr
    rw [e, hd' s hs] at h1
    injection h1 with h1
    exact h1.symm) hr
  have hsame : SameTree ⟨0, fun i => h0.cells (ρ0[i]?.getD 0)⟩ h0 (moved g root) root :=
    sameTree_moved root fun r hr => by simp only [hd' r hr, Option.getD_some]
  obtain ⟨rc, r1, r2⟩ := C84_root env (moved g root) Sc0 Sc _ _ hun i4 i f1
  rw [C76_only_the_tree _ root _ h0 _ h0 [] [] hun hr hsame .start .start] at r2
  obtain ⟨r, q1, q2⟩ := gives_whole (args := [.obj c]) (.cons (.obj f2) .nil) i2 r1 (fun e => (e ▸ r2).not_stuck)
  exact ⟨r, q1, r2.move q2⟩

/-- **C86** If the elements are those of a document, then the LaTeX is that of the document. -/
theorem C86_document (hr : Unshared root) (a : Nat) (hs : Stands S0 h0 root a) (ha : mine a) (c : Nat)
    (hc : (root, c) ∈ cs) (n : Node) (e' : Elem) (h0' h1 : Heap) (hb : buildElem n h0' = (some e', h1))
    (hst : SameTree h0 h1 root e') : ∃ r, Gives env renderCode [.obj c] S r ∧ Seen (latexOf n) r := by
  rw [← C76_document n root e' h0 h0' h1 h0 [] hb hr hst .start]
  exact C86_root env root S0 S h0 mine P cs he hu hr a hs ha c hc

/-- **C86** A call of a converter changes none of the other objects. -/
theorem C86_untouched (x : Elem) (c : Nat) (hc : (x, c) ∈ cs) (v : Val) (S' : Store)
    (hg : Gives env renderCode [.obj c] S (.ok v S') ∨ Gives env renderCode [.obj c] S (.exc v S'))
    (a : Nat) (hl : a < S.length) (hp : ¬ P a) : S'[a]? = S[a]? := by
  obtain ⟨ρ0, Sc0, g, h1, h2, h3⟩ := tree_part he
  obtain ⟨ρ, Sc, ks', i1, i2, i3, i4, i5⟩ := (hu.alone h1 h2 h3).ex
  obtain ⟨i, f1, f2⟩ := i5.find hc
  rcases hg with hg | hg
  · obtain ⟨r', g1, g2⟩ := gives_part (args' := [.obj i]) (.cons (.obj f2) .nil) i2 hg (by intro e; cases e)
    obtain ⟨ρ', v, Sc', rfl, m1, m2, m3⟩ := g2.moves
    exact m1.keep a hl fun h => hp (i3 a h)
  · obtain ⟨r', g1, g2⟩ := gives_part (args' := [.obj i]) (.cons (.obj f2) .nil) i2 hg (by intro e; cases e)
    obtain ⟨ρ', v, Sc', rfl, m1, m2, m3⟩ := g2.moves_exc
    exact m1.keep a hl fun h => hp (i3 a h)
end

/-! ## An example -/

/-- Our six objects of the example of C84, and a list that is not ours. -/
def withList (vs : List Val) : Store := madeStore ++ [.list vs]

theorem withList_stands (vs : List Val) : Stands (withList vs) Heap.empty quotient 5 :=
  .mk (as := [3, 3]) rfl rfl rfl (.cons (.mk (as := []) rfl rfl rfl .nil) (.cons (.mk (as := []) rfl rfl rfl .nil) .nil))

theorem withList_enclosed (vs : List Val) : Enclosed (withList vs) (· < 6) := by
  refine ⟨fun a h => by simp [withList, madeStore]; omega, fun a o h1 h2 => ?_⟩
  match a, h1 with
  | 0, _ | 1, _ | 2, _ | 3, _ | 4, _ | 5, _ => cases h2; simp [OwnO, OwnV]
  | _ + 6, h => exact absurd h (by show ¬ _ + 6 < 6; omega)

/-- The converter is made, then somebody appends to the list, then the converter is used. -/
example (env : Env) : ∃ c S r, Gives env freshCode [.obj 5] (withList []) (.ok (.obj c) S) ∧
    Gives env renderCode [.obj c] (S.set 6 (.list [.none])) r ∧ Seen (.ok c!"\\frac{x}{x}") r := by
  have hq : (convertElem quotient Heap.empty).1 = .ok c!"\\frac{x}{x}" := by decide +kernel
  have he := withList_enclosed []
  obtain ⟨c, S, h1⟩ := C86_create env quotient _ _ Heap.empty (· < 6) _ [] he .start quotient 5 (withList_stands []) (by omega)
  have hl : ∀ a, grown (· < 6) (withList []) S a → a ≠ 6 := by
    intro a h
    rcases h with h | h
    · omega
    · have : (withList []).length = 7 := rfl
      omega
  obtain ⟨r, h2, h3⟩ := C86_root env quotient _ _ Heap.empty (· < 6) _ _ he
    (.other (S' := S.set 6 (.list [.none])) (.fresh .start .self (withList_stands []) (by omega) h1) (by simp)
      fun a ha => by rw [List.getElem?_set_ne fun h => hl a ha h.symm])
    quotient_unshared 5 (withList_stands []) (by omega) c List.mem_cons_self
  rw [hq] at h3
  exact ⟨c, S, r, h1, h2, h3⟩

end Verif.Src
