import Verif.Props.Among

/-!
# Readers, elements and converters in one program (C87)

A program makes readers (`XmlToMathMLAdapter` objects) with the factory, reads texts with them as often
as it likes, makes converters for elements that it got, uses them, and does other things with
other objects, in any order.
-/

namespace Verif.Src
open Spec

/-- `def read(self, xml): return self.convert(xml)` -/
def readCode : Func :=
  ⟨[(.self, none), (.xml, none)], [.ret (.call (.attr (.name .self) .convert) [.name .xml] [] [])]⟩

/-- The element at `b` is the one at `a`, or a child of it, and so on. -/
inductive ElemIn (S : Store) : Nat → Nat → Prop
  | self {a} : ElemIn S a a
  | child {a name value la d b c} {as : List Nat} : S[a]? = some (.inst .GenericMathMLElement [(._name, .str name),
        (._value, .str value), (._children, .obj la), (._attributes, .obj d)]) →
      S[la]? = some (.list (as.map .obj)) → b ∈ as → ElemIn S b c → ElemIn S a c

/-- What the program has: a reader; or the element for the node `n`, read when the store was `S`, with the
converters that were made for elements of it, each with the element. -/
inductive Thing
  | reader (x : Nat)
  | tree (n : Node) (S : Store) (a : Nat) (cs : List (Nat × Nat))

/-- The elements got from a text, each with the objects it is made up of. -/
def treesOf (S : Store) : List Node → List Nat → List (Thing × (Nat → Prop))
  | n :: ns, a :: as => (.tree n S a [], Piece S a) :: treesOf S ns as
  | _, _ => []

/-- What the program may have done.  The state consists of what it has, each thing with the objects
that belong to it, and of the store.  Other code may change everything but the objects that belong to
these things. -/
inductive Life (env : Env) : List (Thing × (Nat → Prop)) → Store → Prop
  | start (S : Store) : Life env [] S
  | make {ts S x S'} : Life env ts S → Gives env fn_make_xml_to_mathml_adapter [] S (.ok (.obj x) S') →
      Life env ((.reader x, grown (fun _ => False) S S') :: ts) S'
  | read {ts S x P xml l S' nodes} {as : List Nat} : Life env ts S → (.reader x, P) ∈ ts →
      Gives env readCode [.obj x, .str xml] S (.ok (.obj l) S') → S'[l]? = some (.list (as.map .obj)) →
      (Adapter.fresh.domElements env xml).1 = .ok nodes → Life env (treesOf S' nodes as ++ ts) S'
  | readFailed {ts S x P xml v S'} : Life env ts S → (.reader x, P) ∈ ts →
      Gives env readCode [.obj x, .str xml] S (.exc v S') → Life env ts S'
  | create {l1 l2 S n S0 a cs P b c S'} : Life env (l1 ++ (.tree n S0 a cs, P) :: l2) S → ElemIn S0 a b →
      Gives env freshCode [.obj b] S (.ok (.obj c) S') →
      Life env (l1 ++ (.tree n S0 a ((b, c) :: cs), grown P S S') :: l2) S'
  | convert {l1 l2 S n S0 a cs P b c v S'} : Life env (l1 ++ (.tree n S0 a cs, P) :: l2) S → (b, c) ∈ cs →
      Gives env renderCode [.obj c] S (.ok v S') → Life env (l1 ++ (.tree n S0 a cs, grown P S S') :: l2) S'
  | failed {l1 l2 S n S0 a cs P b c v S'} : Life env (l1 ++ (.tree n S0 a cs, P) :: l2) S → (b, c) ∈ cs →
      Gives env renderCode [.obj c] S (.exc v S') → Life env (l1 ++ (.tree n S0 a cs, grown P S S') :: l2) S'
  | other {ts S S'} : Life env ts S → S.length ≤ S'.length → (∀ t ∈ ts, ∀ a : Nat, t.2 a → S'[a]? = S[a]?) →
      Life env ts S'

/-! ## The elements in the store -/

mutual
theorem OwnV.mono {P Q : Nat → Prop} (h : ∀ a, P a → Q a) : ∀ {v : Val}, OwnV P v → OwnV Q v
  | .obj a, hv => h a hv
  | .method v _ _, hv => by unfold OwnV at hv ⊢; exact hv.mono h
  | .bmethod v _, hv => by unfold OwnV at hv ⊢; exact hv.mono h
  | .seq vs, hv => by unfold OwnV at hv ⊢; exact OwnVs.mono h hv
  | .none, _ | .bool _, _ | .int _, _ | .str _, _ | .cls _, _ | .func _, _ | .builtin _, _ | .module _, _ | .static _ _, _
  | .enum _ _, _ | .table _, _ | .record _, _ | .document _, _ | .node _, _ | .nodeMap _, _ | .nodeAttr _ _, _ | .exc _, _
  | .pattern _, _ | .matched, _ => by unfold OwnV; trivial
theorem OwnVs.mono {P Q : Nat → Prop} (h : ∀ a, P a → Q a) : ∀ {vs : List Val}, OwnVs P vs → OwnVs Q vs
  | [], _ => by unfold OwnVs; trivial
  | v :: vs, hv => by unfold OwnVs at hv ⊢; exact ⟨hv.1.mono h, OwnVs.mono h hv.2⟩
end

theorem OwnO.mono {P Q : Nat → Prop} (h : ∀ a, P a → Q a) : ∀ {o : Obj}, OwnO P o → OwnO Q o
  | .list _, ho => fun v hv => (ho v hv).mono h
  | .dict _, ho => fun p hp => (ho p hp).mono h
  | .inst _ _, ho => fun p hp => (ho p hp).mono h

/-- The attributes in a dictionary. -/
def attrsIn : Obj → Attrs
  | .dict d => d.map fun p => (p.1, match p.2 with | .str s => s | _ => [])
  | _ => []

/-- The dictionaries of a store. -/
def heapOf (S : Store) : Heap := ⟨0, fun d => (S[d]?.map attrsIn).getD []⟩

theorem attrsIn_dictVal (A : Attrs) : attrsIn (.dict (dictVal A)) = A := by
  simp only [attrsIn, dictVal, List.map_map]
  conv => rhs; rw [← List.map_id A]
  exact List.map_congr_left fun p _ => rfl

section
variable {φ : Nat → Nat} {N : Nat → Prop} {S : Store} {H : Heap} (hd : Dicts φ N H S)
include hd

theorem heapOf_dicts {r : Nat} (hr : N r) : (heapOf S).cells (φ r) = H.cells r := by
  simp only [heapOf, hd.get r hr, Option.map_some, Option.getD_some, attrsIn_dictVal]

mutual
theorem IsElem.stands : ∀ {e : Elem} {a : Nat}, IsElem φ N S e a → Stands S (heapOf S) (moved φ e) a
  | .mk n v r cs, a, h => by
    unfold IsElem at h
    obtain ⟨hr, la, as, h1, h2, h3⟩ := h
    rw [moved]
    refine .mk h1 h2 ?_ h3.stand
    rw [heapOf_dicts hd hr]
    exact hd.get r hr
theorem IsElems.stand : ∀ {es : List Elem} {as : List Nat}, IsElems φ N S es as → Stand S (heapOf S) (movedL φ es) as
  | [], [], _ => by rw [movedL]; exact .nil
  | e :: es, a :: as, h => by
    unfold IsElems at h
    rw [movedL]
    exact .cons h.1.stands h.2.stand
  | [], _ :: _, h => by simp [IsElems] at h
  | _ :: _, [], h => by simp [IsElems] at h
end

theorem IsElem.pieces {a c : Nat} (h : Piece S a c) : ∀ {e : Elem}, IsElem φ N S e a →
    c < S.length ∧ ∀ o, S[c]? = some o → OwnO (Piece S a) o := by
  induction h with
  | self =>
    rintro ⟨n, v, r, cs⟩ hi
    unfold IsElem at hi
    obtain ⟨_, la, as, h1, h2, h3⟩ := hi
    refine ⟨get_lt h1, fun o ho => ?_⟩
    rw [h1] at ho
    cases ho
    simp only [OwnO, List.mem_cons, List.not_mem_nil, or_false]
    rintro p (rfl | rfl | rfl | rfl)
    · trivial
    · trivial
    · exact Piece.children h1
    · exact Piece.attributes h1
  | children h =>
    rintro ⟨n, v, r, cs⟩ hi
    unfold IsElem at hi
    obtain ⟨_, la, as, h1, h2, h3⟩ := hi
    rw [h1] at h
    cases h
    refine ⟨get_lt h2, fun o ho => ?_⟩
    rw [h2] at ho
    cases ho
    intro v hv
    obtain ⟨b, hb, rfl⟩ := List.mem_map.1 hv
    exact Piece.child h1 h2 hb .self
  | attributes h =>
    rintro ⟨n, v, r, cs⟩ hi
    unfold IsElem at hi
    obtain ⟨hr, la, as, h1, h2, h3⟩ := hi
    rw [h1] at h
    cases h
    have h4 := hd.get r hr
    refine ⟨get_lt h4, fun o ho => ?_⟩
    rw [h4] at ho
    cases ho
    intro p hp
    obtain ⟨q, _, rfl⟩ := List.mem_map.1 hp
    trivial
  | child h hl hb _ ih =>
    rintro ⟨n, v, r, cs⟩ hi
    unfold IsElem at hi
    obtain ⟨hr, la, as, h1, h2, h3⟩ := hi
    rw [h1] at h
    cases h
    rw [h2] at hl
    injection hl with hl
    injection hl with hl
    cases objs_inj hl
    obtain ⟨e, _, h4⟩ := h3.find hb
    refine ⟨(ih h4).1, fun o ho => OwnO.mono (fun _ h => .child h1 h2 hb h) ((ih h4).2 o ho)⟩

theorem IsElem.enclosed {e : Elem} {a : Nat} (h : IsElem φ N S e a) : Enclosed S (Piece S a) :=
  ⟨fun _ hc => (IsElem.pieces hd hc h).1, fun _ o hc ho => (IsElem.pieces hd hc h).2 o ho⟩

end

section
variable {φ : Nat → Nat} {N : Nat → Prop} {S : Store}
mutual
theorem IsElem.dicts_in : ∀ {e : Elem} {a : Nat}, IsElem φ N S e a → ∀ r ∈ dicts e, N r
  | .mk n v r cs, a, h => by
    unfold IsElem at h
    obtain ⟨hr, la, as, h1, h2, h3⟩ := h
    rw [dicts]
    intro s hs
    rcases List.mem_cons.1 hs with rfl | hs
    · exact hr
    · exact h3.dicts_in s hs
theorem IsElems.dicts_in : ∀ {es : List Elem} {as : List Nat}, IsElems φ N S es as → ∀ r ∈ dictsL es, N r
  | [], [], _ => by rw [dictsL]; intro r h; cases h
  | e :: es, a :: as, h => by
    unfold IsElems at h
    rw [dictsL]
    intro s hs
    rcases List.mem_append.1 hs with hs | hs
    · exact h.1.dicts_in s hs
    · exact h.2.dicts_in s hs
  | [], _ :: _, h => by simp [IsElems] at h
  | _ :: _, [], h => by simp [IsElems] at h
end
end

mutual
theorem RefsIn.dicts {lo hi : Nat} : ∀ {e : Elem}, RefsIn lo hi e → ∀ r ∈ dicts e, r < hi
  | .mk n v r cs, h => by
    unfold RefsIn at h
    rw [Verif.Src.dicts]
    intro s hs
    rcases List.mem_cons.1 hs with rfl | hs
    · exact h.1.2
    · exact RefsInL.dicts h.2 s hs
theorem RefsInL.dicts {lo hi : Nat} : ∀ {es : List Elem}, RefsInL lo hi es → ∀ r ∈ dictsL es, r < hi
  | [], _ => by rw [dictsL]; intro r h; cases h
  | e :: es, h => by
    unfold RefsInL at h
    rw [dictsL]
    intro s hs
    rcases List.mem_append.1 hs with hs | hs
    · exact RefsIn.dicts h.1 s hs
    · exact RefsInL.dicts h.2 s hs
end

theorem wfEs_mem {Q : Nat → Prop} {b : Bool} {c : Elem} : ∀ {cs : List Elem}, WfEs Q b cs → c ∈ cs → WfE Q b c
  | e :: es, h, hc => by
    unfold WfEs at h
    rcases List.mem_cons.1 hc with rfl | hc
    · exact h.1
    · exact wfEs_mem h.2 hc

theorem wfE_tables {Q : Nat → Prop} {b b' : Bool} {e : Elem} {r : Nat} (h : TableIn b e b' r) (hw : WfE Q b e) :
    if b' = true then Q r else ¬ Q r := by
  induction h with
  | here =>
    unfold WfE at hw
    simpa using hw.1
  | inTable hc _ ih =>
    unfold WfE at hw
    have := hw.2
    simp at this
    exact ih (wfEs_mem this hc)
  | inOther hn hc _ ih =>
    unfold WfE at hw
    refine ih (wfEs_mem ?_ hc)
    have := hw.2
    rwa [show (_ == c!"mtable") = false from beq_eq_false_iff_ne.2 hn, Bool.or_false] at this

theorem wfE_unshared {Q : Nat → Prop} {e : Elem} (h : WfE Q false e) : Unshared e := fun _ h1 h2 =>
  (wfE_tables h2 h) (wfE_tables h1 h)

/-! ## What is read -/

/-- At `a` stands the element for the node `n`, made up of objects of its own. -/
structure IsTree (S : Store) (n : Node) (a : Nat) : Prop where
  tree : ∃ root h, Stands S h root a ∧ Unshared root ∧ ∃ e h0 h1, buildElem n h0 = (some e, h1) ∧ SameTree h h1 root e
  enclosed : Enclosed S (Piece S a)

/-- One element for each node. -/
inductive AreTrees (S : Store) : List Node → List Nat → Prop
  | nil : AreTrees S [] []
  | cons {n ns a as} : IsTree S n a → AreTrees S ns as → AreTrees S (n :: ns) (a :: as)

theorem are_trees {φ : Nat → Nat} {N : Nat → Prop} {S : Store} {Hf : Heap} (hd : Dicts φ N Hf S) :
    ∀ (nodes : List Node) (as : List Nat) (h0 : Heap), (∀ x ∈ nodes, ∃ ps cs, x = .elem c!"math" ps cs) →
      IsElems φ N S (buildElems nodes h0).1 as → (∀ r < (buildElems nodes h0).2.next, Hf.cells r = (buildElems nodes h0).2.cells r) →
      AreTrees S nodes as
  | [], as, h0, _, hi, _ => by
    cases as with
    | nil => exact .nil
    | cons => rw [buildElems] at hi; exact absurd hi (by show ¬ IsElems φ N S [] _; simp [IsElems])
  | n :: ns, as, h0, hm, hi, hc => by
    obtain ⟨ps, cs, rfl⟩ := hm n List.mem_cons_self
    have hs := buildElem_spec (.elem c!"math" ps cs) h0 false
    have hs2 := (buildElems_spec ns (buildElem (.elem c!"math" ps cs) h0).2 false).1
    rw [buildElems_cons] at hi hc
    generalize hb : buildElem (.elem c!"math" ps cs) h0 = p at hs hs2 hi hc
    obtain ⟨o, h1⟩ := p
    cases o with
    | none => rw [buildElem_elem] at hb; cases hb
    | some e =>
      dsimp only at hs hs2 hi hc
      cases as with
      | nil => simp [IsElems] at hi
      | cons a as =>
        unfold IsElems at hi
        obtain ⟨_, _, hs4, Q, hs5⟩ := hs
        refine .cons ⟨⟨moved φ e, heapOf S, hi.1.stands hd, ?_, e, h0, h1, hb, ?_⟩, hi.1.enclosed hd⟩
          (are_trees hd ns as h1 (fun x h => hm x (List.mem_cons_of_mem _ h)) hi.2 hc)
        · exact unshared_moved (fun r hr s hs e' => hd.inj r s (hi.1.dicts_in r hr) (hi.1.dicts_in s hs) e')
            (wfE_unshared hs5)
        · refine sameTree_moved e fun r hr => ?_
          have hr2 := RefsIn.dicts hs4 r hr
          rw [heapOf_dicts hd (hi.1.dicts_in r hr), hc r (Nat.lt_of_lt_of_le hr2 hs2.next_le), hs2.old r hr2]

theorem read_gives {env : Env} {S : Store} {x b e d : Nat} {t : Str} (h : Ready S x b e d t) (xml : Str) :
    ∃ r, Gives env readCode [.obj x, .str xml] S r ∧
      Elements S.length (fun t S' => Ready S' x b e d t ∧ S.length ≤ S'.length) (Adapter.fresh.domElements env xml).1 r := by
  obtain ⟨r, hres, k, hk⟩ := run_reader (env := env) h xml
  refine ⟨r, ⟨k + 1, fun n hn => ?_⟩, hres⟩
  obtain ⟨n, rfl⟩ : ∃ m, n = m + 1 := ⟨n - 1, by omega⟩
  have hx := h.1
  replace hk := hk n (by omega)
  cases hres with
  | found => sym [readCode] [hx, hk]
  | raised => sym [readCode] [hx, hk]

theorem read_untouched {env : Env} {S S' : Store} {x b e d : Nat} {t xml : Str} {v : Val} (h : Ready S x b e d t)
    (hg : Gives env readCode [.obj x, .str xml] S (.ok v S') ∨ Gives env readCode [.obj x, .str xml] S (.exc v S')) :
    ∀ a, a < S.length → a ≠ x → a ≠ b → a ≠ e → a ≠ d → S'[a]? = S[a]? := by
  have key := fun n => C82_reachable (fun a => a = x ∨ a = b ∨ a = e ∨ a = d ∨ S.length ≤ a) S (fun a h => by simp [h])
    (fun a o ho ha => by
      rcases ha with rfl | rfl | rfl | rfl | ha
      · rw [h.1] at ho; cases ho; simp [OwnO, OwnV]
      · rw [h.2] at ho; cases ho; simp [OwnO]
      · rw [h.3] at ho; cases ho; simp [OwnO, OwnV]
      · rw [h.4] at ho; cases ho; simp [OwnO]
      · rw [List.getElem?_eq_none ha] at ho; cases ho) env n readCode [.obj x, .str xml] (by simp [OwnV])
  intro a hl h1 h2 h3 h4
  have hn : ¬ (a = x ∨ a = b ∨ a = e ∨ a = d ∨ S.length ≤ a) := by
    simp only [not_or]
    exact ⟨h1, h2, h3, h4, by omega⟩
  rcases hg with ⟨k, hk⟩ | ⟨k, hk⟩ <;>
  · have := key k
    rw [hk k (Nat.le_refl _)] at this
    exact this.2 a hl hn

/-! ## The invariant -/

mutual
theorem Stands.unique {S : Store} {h : Heap} {x y : Elem} {a : Nat} (h1 : Stands S h x a) (h2 : Stands S h y a) : x = y := by
  cases h1 with
  | mk p1 p2 p3 p4 =>
    cases h2 with
    | mk q1 q2 q3 q4 =>
      rw [p1] at q1
      cases q1
      rw [p2] at q2
      injection q2 with q2
      injection q2 with q2
      cases objs_inj q2
      rw [p4.unique q4]
theorem Stand.unique {S : Store} {h : Heap} {xs ys : List Elem} {as : List Nat} (h1 : Stand S h xs as) (h2 : Stand S h ys as) :
    xs = ys := by
  cases h1 with
  | nil => cases h2; rfl
  | cons p1 p2 =>
    cases h2 with
    | cons q1 q2 => rw [p1.unique q1, p2.unique q2]
end

theorem Stand.find {S : Store} {h : Heap} : ∀ {xs : List Elem} {as : List Nat} {b : Nat}, Stand S h xs as → b ∈ as →
    ∃ x ∈ xs, Stands S h x b
  | _, _, _, .cons h1 h2, hb => by
    rcases List.mem_cons.1 hb with rfl | hb
    · exact ⟨_, List.mem_cons_self, h1⟩
    · obtain ⟨x, p1, p2⟩ := Stand.find h2 hb
      exact ⟨x, List.mem_cons_of_mem _ p1, p2⟩

/-- The elements of a tree. -/
theorem ElemIn.stands {S : Store} {h : Heap} {a b : Nat} (hb : ElemIn S a b) : ∀ {root : Elem}, Stands S h root a →
    Piece S a b ∧ ∃ x, Within x root ∧ Stands S h x b := by
  induction hb with
  | self => exact fun hs => ⟨.self, _, .self, hs⟩
  | child h1 h2 hm _ ih =>
    intro root hs
    cases hs with
    | mk p1 p2 p3 p4 =>
      rw [h1] at p1
      cases p1
      rw [h2] at p2
      injection p2 with p2
      injection p2 with p2
      cases objs_inj p2
      obtain ⟨y, q1, q2⟩ := p4.find hm
      obtain ⟨i1, x, i2, i3⟩ := ih q2
      exact ⟨.child h1 h2 hm i1, x, .child q1 i2, i3⟩

/-- The thing is in order. -/
def Sound (env : Env) (S : Store) : Thing × (Nat → Prop) → Prop
  | (.reader x, P) => ∃ b e d t, Ready S x b e d t ∧ P x ∧ P b ∧ P e ∧ P d
  | (.tree n S0 a cs, P) => ∃ root h0 ks, Stands S0 h0 root a ∧ Unshared root ∧
      (∃ e h h1, buildElem n h = (some e, h1) ∧ SameTree h0 h1 root e) ∧ Enclosed S0 (Piece S0 a) ∧
      Among env root S0 h0 (Piece S0 a) ks P S ∧ ∀ b c, (b, c) ∈ cs → ∃ y, Stands S0 h0 y b ∧ (y, c) ∈ ks

theorem Sound.other {env : Env} {S S' : Store} (hl : S.length ≤ S'.length) : ∀ {t : Thing × (Nat → Prop)},
    Sound env S t → (∀ a : Nat, t.2 a → S'[a]? = S[a]?) → Sound env S' t
  | (.reader x, P), ⟨b, e, d, t, h, h1, h2, h3, h4⟩, hs =>
    ⟨b, e, d, t, ⟨(hs x h1).trans h.1, (hs b h2).trans h.2, (hs e h3).trans h.3, (hs d h4).trans h.4⟩, h1, h2, h3, h4⟩
  | (.tree n S0 a cs, P), ⟨root, h0, ks, h1, h2, h3, h4, h5, h6⟩, hs =>
    ⟨root, h0, ks, h1, h2, h3, h4, .other h5 hl hs, h6⟩

/-- All things are in order, and no two have an object in common. -/
structure Owned (env : Env) (S : Store) (ts : List (Thing × (Nat → Prop))) : Prop where
  lt : ∀ t ∈ ts, ∀ a, t.2 a → a < S.length
  apart : ts.Pairwise fun s t => ∀ a, s.2 a → ¬ t.2 a
  sound : ∀ t ∈ ts, Sound env S t

theorem Owned.step {env : Env} {S S' : Store} {l1 l2 : List (Thing × (Nat → Prop))} {t : Thing × (Nat → Prop)}
    (h : Owned env S (l1 ++ t :: l2)) (hl : S.length ≤ S'.length)
    (hs : ∀ a, a < S.length → ¬ t.2 a → S'[a]? = S[a]?) (t' : Thing × (Nat → Prop)) (hn : Sound env S' t')
    (hp : ∀ a, t'.2 a → t.2 a ∨ S.length ≤ a) (hp' : ∀ a, t'.2 a → a < S'.length) :
    Owned env S' (l1 ++ t' :: l2) := by
  obtain ⟨h1, h2, h3⟩ := h
  rw [List.pairwise_append, List.pairwise_cons] at h2
  obtain ⟨a1, ⟨a2, a3⟩, a4⟩ := h2
  have hne : ∀ s, s ∈ l1 ∨ s ∈ l2 → s ∈ l1 ++ t :: l2 ∧ ∀ a, s.2 a → ¬ t.2 a := by
    rintro s (hs | hs)
    · exact ⟨List.mem_append_left _ hs, a4 s hs t List.mem_cons_self⟩
    · exact ⟨List.mem_append_right _ (List.mem_cons_of_mem _ hs), fun a x y => a2 s hs a y x⟩
  have hnew : ∀ s, s ∈ l1 ∨ s ∈ l2 → ∀ a, s.2 a → ¬ t'.2 a := by
    intro s hs a ha hb
    obtain ⟨m, q⟩ := hne s hs
    rcases hp a hb with hb | hb
    · exact q a ha hb
    · have := h1 s m a ha
      omega
  have hmem : ∀ s, s ∈ l1 ++ t' :: l2 → s = t' ∨ (s ∈ l1 ∨ s ∈ l2) := by
    intro s hs
    rcases List.mem_append.1 hs with hs | hs
    · exact .inr (.inl hs)
    · rcases List.mem_cons.1 hs with hs | hs
      · exact .inl hs
      · exact .inr (.inr hs)
  refine ⟨fun s hm a ha => ?_, ?_, fun s hm => ?_⟩
  · rcases hmem s hm with rfl | hm
    · exact hp' a ha
    · exact Nat.lt_of_lt_of_le (h1 s (hne s hm).1 a ha) hl
  · rw [List.pairwise_append, List.pairwise_cons]
    refine ⟨a1, ⟨fun s hm a x y => hnew s (.inr hm) a y x, a3⟩, fun s hs u hu => ?_⟩
    rcases List.mem_cons.1 hu with rfl | hu
    · exact hnew s (.inl hs)
    · exact a4 s hs u (List.mem_cons_of_mem _ hu)
  · rcases hmem s hm with rfl | hm
    · exact hn
    · obtain ⟨m, q⟩ := hne s hm
      exact (h3 s m).other hl fun a ha => hs a (h1 s m a ha) (q a ha)

theorem Owned.same {env : Env} {S S' : Store} {ts : List (Thing × (Nat → Prop))} (h : Owned env S ts) (hl : S.length ≤ S'.length)
    (hs : ∀ t ∈ ts, ∀ a : Nat, t.2 a → S'[a]? = S[a]?) : Owned env S' ts :=
  ⟨fun t ht a ha => Nat.lt_of_lt_of_le (h.lt t ht a ha) hl, h.apart, fun t ht => (h.sound t ht).other hl (hs t ht)⟩

theorem treesOf_owned {env : Env} {S : Store} : ∀ {ns : List Node} {as : List Nat} {lo : Nat}, AreTrees S ns as → Ranges S lo as →
    Owned env S (treesOf S ns as) ∧ ∀ t ∈ treesOf S ns as, ∀ a, t.2 a → lo ≤ a
  | _, _, lo, .nil, _ => ⟨⟨by simp [treesOf], by simp [treesOf], by simp [treesOf]⟩, by simp [treesOf]⟩
  | _, _, lo, .cons ht hts, .cons h1 h2 h3 h4 => by
    obtain ⟨⟨i1, i2, i3⟩, i4⟩ := treesOf_owned (env := env) hts h4
    rw [treesOf]
    refine ⟨⟨fun t hm a ha => ?_, List.pairwise_cons.2 ⟨fun t hm a x y => ?_, i2⟩, fun t hm => ?_⟩, fun t hm a ha => ?_⟩
    · rcases List.mem_cons.1 hm with rfl | hm
      · have := h1 a ha
        omega
      · exact i1 t hm a ha
    · have := h1 a x
      have := i4 t hm a y
      omega
    · rcases List.mem_cons.1 hm with rfl | hm
      · obtain ⟨root, h, p1, p2, p3⟩ := ht.tree
        exact ⟨root, h, [], p1, p2, p3, ht.enclosed, .start, fun _ _ h => by cases h⟩
      · exact i3 t hm
    · rcases List.mem_cons.1 hm with rfl | hm
      · exact (h1 a ha).1
      · have := i4 t hm a ha
        omega

theorem Owned.append {env : Env} {S : Store} {ts us : List (Thing × (Nat → Prop))} {lo : Nat} (h1 : Owned env S ts)
    (h2 : Owned env S us) (hl : ∀ t ∈ ts, ∀ a, t.2 a → lo ≤ a) (hu : ∀ t ∈ us, ∀ a, t.2 a → a < lo) :
    Owned env S (ts ++ us) := by
  refine ⟨fun t hm => ?_, List.pairwise_append.2 ⟨h1.apart, h2.apart, fun s hs t ht a x y => ?_⟩, fun t hm => ?_⟩
  · rcases List.mem_append.1 hm with hm | hm
    · exact h1.lt t hm
    · exact h2.lt t hm
  · have := hl s hs a x
    have := hu t ht a y
    omega
  · rcases List.mem_append.1 hm with hm | hm
    · exact h1.sound t hm
    · exact h2.sound t hm

theorem make_gives (env : Env) (S : Store) : Gives env fn_make_xml_to_mathml_adapter [] S (.ok (.obj (S.length + 3)) (withReader S)) :=
  ⟨4, fun n hn => by
    obtain ⟨n, rfl⟩ : ∃ m, n = m + 4 := ⟨n - 4, by omega⟩
    exact run_factory S n⟩

theorem fresh_untouched {env : Env} {root : Elem} {S0 S S' : Store} {h0 : Heap} {mine P : Nat → Prop} {ks : List (Elem × Nat)}
    (he : Enclosed S0 mine) (hu : Among env root S0 h0 mine ks P S) {b : Nat} (hb : mine b) {v : Val}
    (hg : Gives env freshCode [.obj b] S (.ok v S')) : S.length ≤ S'.length ∧ ∀ a, a < S.length → ¬ P a → S'[a]? = S[a]? := by
  obtain ⟨ρ0, Sc0, g, h1, h2, h3⟩ := tree_part he
  obtain ⟨ρ, Sc, ks', i1, i2, i3, i4, i5⟩ := (hu.alone h1 h2 h3).ex
  obtain ⟨r', g1, g2⟩ := gives_part (args' := [.obj (g b)]) (.cons (.obj (get_prefix i1 (h3 b ((h2 b).2 hb)))) .nil) i2 hg (by intro e; cases e)
  obtain ⟨ρ', v, Sc', rfl, m1, m2, m3⟩ := g2.moves
  exact ⟨m1.grow, fun a hl hp => m1.keep a hl fun h => hp (i3 a h)⟩

theorem render_untouched {env : Env} {root x : Elem} {S0 S S' : Store} {h0 : Heap} {mine P : Nat → Prop} {ks : List (Elem × Nat)}
    (he : Enclosed S0 mine) (hu : Among env root S0 h0 mine ks P S) {c : Nat} (hc : (x, c) ∈ ks) {v : Val}
    (hg : Gives env renderCode [.obj c] S (.ok v S') ∨ Gives env renderCode [.obj c] S (.exc v S')) :
    S.length ≤ S'.length ∧ ∀ a, a < S.length → ¬ P a → S'[a]? = S[a]? := by
  refine ⟨?_, fun a hl hp => C86_untouched env root S0 S h0 mine P ks he hu x c hc v S' hg a hl hp⟩
  obtain ⟨ρ0, Sc0, g, h1, h2, h3⟩ := tree_part he
  obtain ⟨ρ, Sc, ks', i1, i2, i3, i4, i5⟩ := (hu.alone h1 h2 h3).ex
  obtain ⟨i, f1, f2⟩ := i5.find hc
  rcases hg with hg | hg
  · obtain ⟨r', g1, g2⟩ := gives_part (args' := [.obj i]) (.cons (.obj f2) .nil) i2 hg (by intro e; cases e)
    obtain ⟨ρ', v, Sc', rfl, m1, m2, m3⟩ := g2.moves
    exact m1.grow
  · obtain ⟨r', g1, g2⟩ := gives_part (args' := [.obj i]) (.cons (.obj f2) .nil) i2 hg (by intro e; cases e)
    obtain ⟨ρ', v, Sc', rfl, m1, m2, m3⟩ := g2.moves_exc
    exact m1.grow

theorem grown_old {P : Nat → Prop} {S S' : Store} {a : Nat} (h : grown P S S' a) : P a ∨ S.length ≤ a := by
  rcases h with h | h
  · exact .inl h
  · exact .inr h.1

theorem grown_lt {P : Nat → Prop} {S S' : Store} (hP : ∀ a, P a → a < S.length) (hl : S.length ≤ S'.length) {a : Nat}
    (h : grown P S S' a) : a < S'.length := by
  rcases h with h | h
  · exact Nat.lt_of_lt_of_le (hP a h) hl
  · exact h.2

/-- Reading keeps everything in order. -/
theorem Owned.read {env : Env} {S S' : Store} {ts : List (Thing × (Nat → Prop))} (ih : Owned env S ts) {x : Nat} {P : Nat → Prop}
    (hm : (.reader x, P) ∈ ts) {xml : Str} {r : Res Val} {v : Val} (hg : Gives env readCode [.obj x, .str xml] S r)
    (hr : r = .ok v S' ∨ r = .exc v S') : Owned env S' ts ∧
      ∀ l nodes (as : List Nat), r = .ok (.obj l) S' → S'[l]? = some (.list (as.map .obj)) →
        (Adapter.fresh.domElements env xml).1 = .ok nodes → AreTrees S' nodes as ∧ Ranges S' S.length as := by
  obtain ⟨b, e, d, t, h, p1, p2, p3, p4⟩ := ih.sound _ hm
  obtain ⟨r', h1, h2⟩ := read_gives (env := env) h xml
  cases hg.unique h1
  have hun : ∀ a, a < S.length → ¬ P a → S'[a]? = S[a]? := by
    have := read_untouched (v := v) (S' := S') (xml := xml) h (by
      rcases hr with rfl | rfl
      · exact .inl hg
      · exact .inr hg)
    exact fun a hl hp => this a hl (fun e => hp (e ▸ p1)) (fun e => hp (e ▸ p2)) (fun e => hp (e ▸ p3)) (fun e => hp (e ▸ p4))
  obtain ⟨l1, l2, rfl⟩ := List.append_of_mem hm
  have hst : ∀ {t'}, Ready S' x b e d t' ∧ S.length ≤ S'.length → Owned env S' (l1 ++ (.reader x, P) :: l2) := fun hq =>
    ih.step hq.2 hun (.reader x, P) ⟨b, e, d, _, hq.1, p1, p2, p3, p4⟩ (fun a ha => .inl ha)
      fun a ha => Nat.lt_of_lt_of_le (ih.lt _ hm a ha) hq.2
  cases h2 with
  | @found nodes φ H es as a t' S1 hx he hd hi ha hn hq =>
    have : S1 = S' := by
      rcases hr with hr | hr
      · cases hr; rfl
      · cases hr
    subst this
    refine ⟨hst hq, fun l nodes' as' hl has hx' => ?_⟩
    cases hl
    rw [ha] at has
    injection has with has
    injection has with has
    cases objs_inj has
    rw [hx] at hx'
    cases hx'
    refine ⟨are_trees hd nodes as Heap.empty (mathmlElements_math 5 none _ nodes hx) (by rw [he]; exact hi) (fun r _ => by rw [he]), hn⟩
  | @raised e' t' S1 hx hq =>
    have : S1 = S' := by
      rcases hr with hr | hr
      · cases hr
      · cases hr; rfl
    subst this
    exact ⟨hst hq, fun l _ _ hl => by cases hl⟩

theorem Life.owned {env : Env} {ts : List (Thing × (Nat → Prop))} {S : Store} (h : Life env ts S) : Owned env S ts := by
  induction h with
  | start => exact ⟨by simp, by simp, by simp⟩
  | @make ts S x S' _ hg ih =>
    cases hg.unique (make_gives env S)
    have hl : (withReader S).length = S.length + 4 := by simp
    have h2 := ih.same (S' := withReader S) (by omega) fun t ht a ha => by
      have := ih.lt t ht a ha
      simp only [List.append_assoc]
      rw [List.getElem?_append_left this]
    refine Owned.append (ts := [_]) (lo := S.length) ⟨?_, by simp, ?_⟩ h2 ?_ ih.lt
    · simp only [List.mem_singleton, forall_eq]
      intro a ha
      exact grown_lt (fun _ h => h.elim) (by omega) ha
    · simp only [List.mem_singleton, forall_eq]
      refine ⟨_, _, _, _, withReader_ready S, ?_, ?_, ?_, ?_⟩ <;> exact .inr ⟨by omega, by omega⟩
    · simp only [List.mem_singleton, forall_eq]
      intro a ha
      exact (grown_old ha).resolve_left fun h => h
  | @read ts S x P xml l S' nodes as _ hm hg hl hx ih =>
    obtain ⟨h1, h2⟩ := ih.read hm hg (.inl rfl)
    obtain ⟨h3, h4⟩ := h2 l nodes as rfl hl hx
    obtain ⟨h5, h6⟩ := treesOf_owned (env := env) h3 h4
    exact h5.append h1 h6 ih.lt
  | readFailed _ hm hg ih => exact (ih.read hm hg (.inr rfl)).1
  | @create l1 l2 S n S0 a cs P b c S' _ hb hg ih =>
    obtain ⟨root, h0, ks, p1, p2, p3, p4, p5, p6⟩ := ih.sound _ (List.mem_append_right _ List.mem_cons_self)
    obtain ⟨q1, y, q2, q3⟩ := hb.stands p1
    obtain ⟨u1, u2⟩ := fresh_untouched p4 p5 q1 hg
    refine ih.step u1 u2 _ ⟨root, h0, (y, c) :: ks, p1, p2, p3, p4, .fresh p5 q2 q3 q1 hg, fun b' c' hm => ?_⟩
      (fun _ => grown_old) (fun _ => grown_lt (ih.lt _ (List.mem_append_right _ List.mem_cons_self)) u1)
    rcases List.mem_cons.1 hm with hm | hm
    · cases hm
      exact ⟨y, q3, List.mem_cons_self⟩
    · obtain ⟨y', r1, r2⟩ := p6 b' c' hm
      exact ⟨y', r1, List.mem_cons_of_mem _ r2⟩
  | @convert l1 l2 S n S0 a cs P b c v S' _ hb hg ih =>
    obtain ⟨root, h0, ks, p1, p2, p3, p4, p5, p6⟩ := ih.sound _ (List.mem_append_right _ List.mem_cons_self)
    obtain ⟨y, q1, q2⟩ := p6 b c hb
    obtain ⟨u1, u2⟩ := render_untouched p4 p5 q2 (.inl hg)
    exact ih.step u1 u2 _ ⟨root, h0, ks, p1, p2, p3, p4, .convert p5 q2 hg, p6⟩
      (fun _ => grown_old) (fun _ => grown_lt (ih.lt _ (List.mem_append_right _ List.mem_cons_self)) u1)
  | @failed l1 l2 S n S0 a cs P b c v S' _ hb hg ih =>
    obtain ⟨root, h0, ks, p1, p2, p3, p4, p5, p6⟩ := ih.sound _ (List.mem_append_right _ List.mem_cons_self)
    obtain ⟨y, q1, q2⟩ := p6 b c hb
    obtain ⟨u1, u2⟩ := render_untouched p4 p5 q2 (.inr hg)
    exact ih.step u1 u2 _ ⟨root, h0, ks, p1, p2, p3, p4, .failed p5 q2 hg, p6⟩
      (fun _ => grown_old) (fun _ => grown_lt (ih.lt _ (List.mem_append_right _ List.mem_cons_self)) u1)
  | other _ hl hs ih => exact ih.same hl hs

/-! ## The claims -/

section
variable (env : Env)

/-- **C87** A reader can always be made. -/
theorem C87_make (S : Store) : ∃ x S', Gives env fn_make_xml_to_mathml_adapter [] S (.ok (.obj x) S') :=
  ⟨_, _, make_gives env S⟩

variable (ts : List (Thing × (Nat → Prop))) (S : Store) (h : Life env ts S)
include h

/-- **C87** Reading a text ends, whatever was read before, and gives a list with one element for each `math` element
found in it, or raises the exception that the text gives. -/
theorem C87_read (x : Nat) (P : Nat → Prop) (hx : (.reader x, P) ∈ ts) (xml : Str) :
    match (Adapter.fresh.domElements env xml).1 with
    | .ok nodes => ∃ (l : Nat) (S' : Store) (as : List Nat), Gives env readCode [.obj x, .str xml] S (.ok (.obj l) S') ∧
        S'[l]? = some (.list (as.map .obj)) ∧ as.length = nodes.length
    | .error e => ∃ S', Gives env readCode [.obj x, .str xml] S (.exc (.exc e) S') := by
  obtain ⟨b, e, d, t, h0, p1, p2, p3, p4⟩ := h.owned.sound _ hx
  obtain ⟨r, h1, h2⟩ := read_gives (env := env) h0 xml
  cases h2 with
  | @found nodes φ H es as a t' S1 hx' he hd hi ha hn hq =>
    rw [hx']
    have ht := ((h.owned.read hx h1 (.inl rfl)).2 a nodes as rfl ha hx').1
    have : ∀ {ns : List Node} {as : List Nat}, AreTrees S1 ns as → as.length = ns.length := by
      intro ns as ht
      induction ht with
      | nil => rfl
      | cons _ _ ih => simp [ih]
    exact ⟨a, S1, as, h1, ha, this ht⟩
  | raised hx' _ =>
    rw [hx']
    exact ⟨_, h1⟩

/-- **C87** A converter can always be made, for every element of what was read. -/
theorem C87_create (n : Node) (S0 : Store) (a : Nat) (cs : List (Nat × Nat)) (P : Nat → Prop)
    (ht : (.tree n S0 a cs, P) ∈ ts) (b : Nat) (hb : ElemIn S0 a b) :
    ∃ c S', Gives env freshCode [.obj b] S (.ok (.obj c) S') := by
  obtain ⟨root, h0, ks, p1, p2, p3, p4, p5, p6⟩ := h.owned.sound _ ht
  obtain ⟨q1, y, q2, q3⟩ := hb.stands p1
  exact C86_create env root S0 S h0 _ P ks p4 p5 y b q3 q1

/-- **C87** A converter of an element that was read gives the LaTeX of the node it was read from, or
the exception of this node, each time. -/
theorem C87_convert (n : Node) (S0 : Store) (a : Nat) (cs : List (Nat × Nat)) (P : Nat → Prop)
    (ht : (.tree n S0 a cs, P) ∈ ts) (c : Nat) (hc : (a, c) ∈ cs) :
    ∃ r, Gives env renderCode [.obj c] S r ∧ Seen (latexOf n) r := by
  obtain ⟨root, h0, ks, p1, p2, ⟨e, h', h1, p3, p3'⟩, p4, p5, p6⟩ := h.owned.sound _ ht
  obtain ⟨y, q1, q2⟩ := p6 a c hc
  cases p1.unique q1
  exact C86_document env root S0 S h0 _ P ks p4 p5 p2 a p1 .self c q2 n e h' h1 p3 p3'

/-- **C87** Readers, and elements with their converters, have no objects in common. -/
theorem C87_apart : ts.Pairwise fun s t => ∀ a, s.2 a → ¬ t.2 a := h.owned.apart

/-- **C87** Reading changes only the reader. -/
theorem C87_read_untouched (x : Nat) (P : Nat → Prop) (hx : (.reader x, P) ∈ ts) (xml : Str) (v : Val) (S' : Store)
    (hg : Gives env readCode [.obj x, .str xml] S (.ok v S') ∨ Gives env readCode [.obj x, .str xml] S (.exc v S'))
    (a : Nat) (hl : a < S.length) (hp : ¬ P a) : S'[a]? = S[a]? := by
  obtain ⟨b, e, d, t, h0, p1, p2, p3, p4⟩ := h.owned.sound _ hx
  exact read_untouched h0 hg a hl (fun e => hp (e ▸ p1)) (fun e => hp (e ▸ p2)) (fun e => hp (e ▸ p3)) (fun e => hp (e ▸ p4))
end

theorem mathmlElements_maths {env : Env} {nodes : List Node} : ∀ (n : Nat) (o : Option Exc) (xml : Str),
    (mathmlElements env (n + 1) o xml).1 = .ok nodes → ∃ d, nodes = maths d := by
  intro n
  induction n with
  | zero =>
    intro o xml h
    rw [mathmlElements] at h
    split at h
    · next d _ =>
      injection h with h
      exact ⟨d, by rw [← h, mathElements_eq]; rfl⟩
    · split at h <;> cases h
  | succ n ih =>
    intro o xml h
    rw [mathmlElements] at h
    split at h
    · next d _ =>
      injection h with h
      exact ⟨d, by rw [← h, mathElements_eq]; rfl⟩
    · split at h
      · cases h
      · exact ih _ _ h

/-- **C87** To read a text, to convert each element and to put the results together is to call
`MathMLToLaTeX.convert` with the text. -/
theorem C87_together (env : Env) (xml : Str) (nodes : List Node) (h : (Adapter.fresh.domElements env xml).1 = .ok nodes)
    (s : Str) : convert env xml = .ok s ↔ ∃ ss : List Str, nodes.map latexOf = ss.map .ok ∧ s = ss.flatten := by
  obtain ⟨d, hd⟩ := mathmlElements_maths 4 none _ h
  rw [hd, ← C04_document_order]
  have : convert env xml = docResult d := by
    rw [docResult, convert, convert, h, hd]
    have : (Adapter.fresh.domElements ⟨fun _ => .ok d, fun _ => false⟩ []).1 = .ok (maths d) := by
      show Except.ok (mathElements d) = _
      rw [mathElements_eq]
      rfl
    rw [this]
  rw [this]

/-- **C87** If the text cannot be read, then that is what `MathMLToLaTeX.convert` raises. -/
theorem C87_together_raised (env : Env) (xml : Str) (e : Exc) (h : (Adapter.fresh.domElements env xml).1 = .error e) :
    convert env xml = .error e := by
  rw [convert, h]

/-! ## An example -/

/-- A parser that knows one document, `x` squared, for one text. -/
def oneText : Env where
  parse t := if t = c!"<good>" then
      .ok [.elem c!"math" [] [.elem c!"msup" [] [.elem c!"mi" [] [.text c!"x"], .elem c!"mn" [] [.text c!"2"]]]]
    else .error (.other 7)
  isWord _ := true

theorem oneText_good : (Adapter.fresh.domElements oneText c!"<good>").1 =
    .ok [.elem c!"math" [] [.elem c!"msup" [] [.elem c!"mi" [] [.text c!"x"], .elem c!"mn" [] [.text c!"2"]]]] := by
  rfl

theorem oneText_bad : (Adapter.fresh.domElements oneText c!"<bad>").1 = .error (.parserOther 7) := by
  rfl

theorem oneText_latex : latexOf (.elem c!"math" [] [.elem c!"msup" [] [.elem c!"mi" [] [.text c!"x"], .elem c!"mn" [] [.text c!"2"]]]) =
    .ok c!"x^{2}" := by
  rw [latexOf_eq]; decide +kernel

/-- One reader reads a text, then another one which fails; then the element of the first is converted. -/
example (S : Store) : ∃ x S1 l S2 a v S3 c S4 S5, Gives oneText fn_make_xml_to_mathml_adapter [] S (.ok (.obj x) S1) ∧
    Gives oneText readCode [.obj x, .str c!"<good>"] S1 (.ok (.obj l) S2) ∧ S2[l]? = some (.list [.obj a]) ∧
    Gives oneText readCode [.obj x, .str c!"<bad>"] S2 (.exc v S3) ∧
    Gives oneText freshCode [.obj a] S3 (.ok (.obj c) S4) ∧
    Gives oneText renderCode [.obj c] S4 (.ok (.str c!"x^{2}") S5) := by
  obtain ⟨x, S1, h1⟩ := C87_make oneText S
  have l1 := Life.make (.start S) h1
  have h2 := C87_read oneText _ S1 l1 x _ List.mem_cons_self c!"<good>"
  rw [oneText_good] at h2
  obtain ⟨l, S2, as, h2, h3, h4⟩ := h2
  obtain ⟨a, rfl⟩ : ∃ a, as = [a] := by
    match as, h4 with
    | [a], _ => exact ⟨a, rfl⟩
  have l2 := Life.read l1 List.mem_cons_self h2 h3 oneText_good
  have h5 := C87_read oneText _ S2 l2 x _ (List.mem_append_right _ List.mem_cons_self) c!"<bad>"
  rw [oneText_bad] at h5
  obtain ⟨S3, h5⟩ := h5
  have l3 := Life.readFailed l2 (List.mem_append_right _ List.mem_cons_self) h5
  obtain ⟨c, S4, h6⟩ := C87_create oneText _ S3 l3 _ S2 a [] _ List.mem_cons_self a .self
  have l4 := Life.create (l1 := []) l3 .self h6
  obtain ⟨r, h7, h8⟩ := C87_convert oneText _ S4 l4 _ S2 a _ _ List.mem_cons_self c List.mem_cons_self
  rw [oneText_latex] at h8
  cases h8 with
  | ok _ S5 => exact ⟨x, S1, l, S2, a, _, S3, c, S4, S5, h1, h2, h3, h5, h6, h7⟩

end Verif.Src
