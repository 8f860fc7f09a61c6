import Verif.Source.Text
import Verif.Lemmas.Faults

/-!
# Stores and the heap of the model

How the stores of the interpreter relate to the heap of `Verif.Model`, and what it means
that a run of the source and a run of the model agree.
-/

namespace Verif.Src

attribute [local irreducible] vowelsWithAccents accentToLtxCmd specialFontChars allMathSymbolsByChar
  allMathSymbolsByGlyph mathNumberByGlyph allMathOperatorsByChar allMathOperatorsByGlyph

variable {env : Env}

/-! ## Later stores -/

/-- Whether an object is a dictionary. -/
def isDict : Obj → Bool
  | .dict _ => true
  | _ => false

/-- A later store: objects may have been created, and dictionaries changed. -/
structure Ext (h h' : Store) : Prop where
  length : h.length ≤ h'.length
  get : ∀ {a : Nat} {o : Obj}, h[a]? = some o → isDict o = false → h'[a]? = some o

theorem Ext.refl (h : Store) : Ext h h := ⟨Nat.le_refl _, fun h _ => h⟩

theorem Ext.trans {h h' h'' : Store} (h1 : Ext h h') (h2 : Ext h' h'') : Ext h h'' :=
  ⟨Nat.le_trans h1.length h2.length, fun ha hd => h2.get (h1.get ha hd) hd⟩

theorem Ext.app (h l : Store) : Ext h (h ++ l) :=
  ⟨by simp, fun ha _ => look_old l ha⟩

theorem Ext.app' {h h' : Store} (he : Ext h h') (l : Store) : Ext h (h' ++ l) :=
  he.trans (.app h' l)

/-- There are more objects, and those that there were are as before. -/
structure Adds (h h' : Store) : Prop where
  length : h.length ≤ h'.length
  get : ∀ {a : Nat} {o : Obj}, h[a]? = some o → h'[a]? = some o

theorem Adds.refl (h : Store) : Adds h h := ⟨Nat.le_refl _, fun h => h⟩

theorem Adds.trans {h h' h'' : Store} (h1 : Adds h h') (h2 : Adds h' h'') : Adds h h'' :=
  ⟨Nat.le_trans h1.length h2.length, fun ha => h2.get (h1.get ha)⟩

theorem Adds.app (h l : Store) : Adds h (h ++ l) := ⟨by simp, fun ha => look_old l ha⟩

theorem Adds.app' {h h' : Store} (he : Adds h h') (l : Store) : Adds h (h' ++ l) := he.trans (.app h' l)

theorem Adds.ext {h h' : Store} (he : Adds h h') : Ext h h' := ⟨he.length, fun ha _ => he.get ha⟩

macro_rules | `(tactic| sym_side) => `(tactic| rfl)

/-! ## Attributes and elements -/

/-- The dictionaries with smaller numbers. -/
instance : Coe Nat (Nat → Prop) := ⟨fun n r => r < n⟩

/-- Some dictionaries of the model: those in `has` are as in the model, and those in `all` at least
but for the mark of an inner table, which may still be missing. -/
structure Dom where
  has : Nat → Prop
  all : Nat → Prop
  sub : ∀ r, has r → all r

instance : CoeFun Dom (fun _ => Nat → Prop) := ⟨Dom.has⟩

/-- All of them are as in the model. -/
@[reducible] def Dom.whole (N : Nat → Prop) : Dom := ⟨N, N, fun _ h => h⟩

instance : Coe (Nat → Prop) Dom := ⟨Dom.whole⟩
instance : Coe Nat Dom := ⟨fun n => Dom.whole fun r => r < n⟩

/-- More of them are as in the model. -/
@[reducible] def Dom.add (N : Dom) (P : Nat → Prop) : Dom :=
  ⟨fun r => N r ∨ P r ∧ N.all r, N.all, fun r h => h.elim (N.sub r) (·.2)⟩

/-- A value with which nothing can be done. -/
def junk : Val := .module .self

/-- The dictionary, with such a value in place of the mark that it does not have. -/
def spoiled (A : Attrs) : Dict Val := dictVal A ++ [(innerTable, junk)]

theorem dictSet_last {d : Dict Val} {k : Str} (h : (d.any fun p => p.1 == k) = false) (v w : Val) :
    Dict.set (d ++ [(k, v)]) k w = d ++ [(k, w)] := by
  have h' : ∀ p ∈ d, (p.1 == k) = false := by simpa using h
  unfold Dict.set
  rw [if_pos (by simp), List.map_append]
  congr 1
  · conv => rhs; rw [← List.map_id d]
    refine List.map_congr_left fun p hp => ?_
    have hne : ¬ p.1 = k := by simpa using h' p hp
    simp [hne]
  · simp

theorem any_of_get {β : Type} {d : Dict β} {k : Str} (h : Dict.get? d k = none) : (d.any fun p => p.1 == k) = false := by
  induction d with
  | nil => rfl
  | cons p d ih =>
    obtain ⟨q, w⟩ := p
    rw [Dict.get?] at h
    cases hd : Dict.get? d k with
    | some _ => rw [hd] at h; cases h
    | none =>
      rw [hd] at h
      rw [List.any_cons, ih hd]
      by_cases hq : q = k
      · rw [if_pos hq] at h; cases h
      · simp [hq]

theorem set_spoiled {A : Attrs} (h : Dict.get? A innerTable = none) (v : Str) :
    Dict.set (spoiled A) innerTable (.str v) = dictVal (Dict.set A innerTable v) := by
  have h1 : ((dictVal A).any fun p => p.1 == innerTable) = false :=
    any_of_get (by rw [get_dictVal, h]; rfl)
  rw [← set_dictVal, spoiled, dictSet_last h1]
  unfold Dict.set
  rw [if_neg (by simp [h1])]

/-- The dictionaries `N` of the model are at the addresses `φ`. -/
structure Dicts (φ : Nat → Nat) (N : Dom) (H : Heap) (h : Store) : Prop where
  get : ∀ r, N r → h[φ r]? = some (.dict (dictVal (H.cells r)))
  inj : ∀ r s, N.all r → N.all s → φ r = φ s → r = s
  cell : ∀ r, N.all r → h[φ r]? = some (.dict (dictVal (H.cells r))) ∨
    Dict.get? (H.cells r) innerTable = none ∧ h[φ r]? = some (.dict (spoiled (H.cells r)))

theorem Dicts.of {φ : Nat → Nat} {N : Nat → Prop} {H : Heap} {h : Store}
    (get : ∀ r, N r → h[φ r]? = some (.dict (dictVal (H.cells r)))) (inj : ∀ r s, N r → N s → φ r = φ s → r = s) :
    Dicts φ N H h := ⟨get, inj, fun r hr => .inl (get r hr)⟩

/-- Fewer of them. -/
theorem Dicts.less {φ : Nat → Nat} {N N' : Dom} {H : Heap} {h : Store} (hd : Dicts φ N' H h) (ha : N'.all = N.all)
    (hs : ∀ r, N r → N' r) : Dicts φ N H h :=
  ⟨fun r hr => hd.get r (hs r hr), fun r s => by rw [← ha]; exact hd.inj r s, fun r => by rw [← ha]; exact hd.cell r⟩

theorem Dicts.is {φ : Nat → Nat} {N : Dom} {H : Heap} {h : Store} (hd : Dicts φ N H h) {r : Nat} (hr : N.all r) :
    ∃ d, h[φ r]? = some (.dict d) ∧ ∀ v, Dict.set d innerTable (.str v) = dictVal (Dict.set (H.cells r) innerTable v) := by
  rcases hd.cell r hr with h1 | ⟨h1, h2⟩
  · exact ⟨_, h1, fun v => set_dictVal _ _ _⟩
  · exact ⟨_, h2, fun v => set_spoiled h1 v⟩

theorem Dicts.same {φ : Nat → Nat} {N : Dom} {H : Heap} {h h' : Store} (hd : Dicts φ N H h)
    (he : ∀ a, a < h.length → h'[a]? = h[a]?) : Dicts φ N H h' := by
  refine ⟨fun r hr => by rw [he _ (get_lt (hd.get r hr))]; exact hd.get r hr, hd.inj, fun r hr => ?_⟩
  rcases hd.cell r hr with h1 | ⟨h1, h2⟩
  · exact .inl (by rw [he _ (get_lt h1)]; exact h1)
  · exact .inr ⟨h1, by rw [he _ (get_lt h2)]; exact h2⟩

theorem Dicts.app {φ : Nat → Nat} {N : Dom} {H : Heap} {h : Store} (hd : Dicts φ N H h)
    (l : Store) : Dicts φ N H (h ++ l) :=
  hd.same fun _ ha => List.getElem?_append_left ha

/-- An assignment to an item. -/
theorem Dicts.set {φ : Nat → Nat} {N : Dom} {H : Heap} {h : Store} (hd : Dicts φ N H h) {r : Nat}
    (hr : N.all r) (k v : Str) :
    Dicts φ (N.add (· = r)) (H.setItem r k v) (h.set (φ r) (.dict (dictVal (Dict.set (H.cells r) k v)))) := by
  have hlt : φ r < h.length := by
    obtain ⟨d, h1, _⟩ := hd.is hr
    exact get_lt h1
  have key : ∀ s, N.all s → s ≠ r → (h.set (φ r) (.dict (dictVal (Dict.set (H.cells r) k v))))[φ s]? = h[φ s]? ∧
      (H.setItem r k v).cells s = H.cells s := fun s hs he =>
    ⟨List.getElem?_set_ne (fun h => he (hd.inj _ _ hr hs h).symm), by simp [Heap.setItem, he]⟩
  have self : (h.set (φ r) (.dict (dictVal (Dict.set (H.cells r) k v))))[φ r]? =
      some (.dict (dictVal ((H.setItem r k v).cells r))) := by
    rw [List.getElem?_set_self hlt]
    simp [Heap.setItem]
  refine ⟨fun s hs => ?_, hd.inj, fun s hs => ?_⟩
  · by_cases he : s = r
    · subst he
      exact self
    · rcases hs with hs | ⟨hs, _⟩
      · obtain ⟨k1, k2⟩ := key s (N.sub s hs) he
        rw [k1, k2]
        exact hd.get s hs
      · exact absurd hs he
  · by_cases he : s = r
    · subst he
      exact .inl self
    · obtain ⟨k1, k2⟩ := key s hs he
      rw [k1, k2]
      exact hd.cell s hs

theorem Ext.setDict {h : Store} {a : Nat} {d d' : Dict Val} (ha : h[a]? = some (.dict d)) :
    Ext h (h.set a (.dict d')) := by
  refine ⟨by simp, fun {b o} hb ho => ?_⟩
  by_cases he : b = a
  · subst he
    rw [ha] at hb
    cases hb
    cases ho
  · rw [List.getElem?_set_ne (fun h => he h.symm)]
    exact hb

mutual
/-- The element is at the address. -/
def IsElem (φ : Nat → Nat) (N : Nat → Prop) (h : Store) : Elem → Nat → Prop
  | .mk name value r cs, a => N r ∧ ∃ la as, h[a]? = some (elemObj name value la (φ r)) ∧
      h[la]? = some (.list (as.map .obj)) ∧ IsElems φ N h cs as
/-- The elements are at the addresses. -/
def IsElems (φ : Nat → Nat) (N : Nat → Prop) (h : Store) : List Elem → List Nat → Prop
  | [], [] => True
  | e :: es, a :: as => IsElem φ N h e a ∧ IsElems φ N h es as
  | _, _ => False
end

mutual
theorem IsElem.mono {φ : Nat → Nat} {N : Nat → Prop} {h h' : Store} (he : Ext h h') :
    ∀ {e : Elem} {a : Nat}, IsElem φ N h e a → IsElem φ N h' e a
  | .mk _ _ _ cs, a, hi => by
    unfold IsElem at hi ⊢
    obtain ⟨hr, la, as, h1, h2, h3⟩ := hi
    exact ⟨hr, la, as, he.get h1 rfl, he.get h2 rfl, IsElems.mono he h3⟩
theorem IsElems.mono {φ : Nat → Nat} {N : Nat → Prop} {h h' : Store} (he : Ext h h') :
    ∀ {es : List Elem} {as : List Nat}, IsElems φ N h es as → IsElems φ N h' es as
  | [], [], _ => by simp [IsElems]
  | e :: es, a :: as, hi => by
    unfold IsElems at hi ⊢
    exact ⟨hi.1.mono he, hi.2.mono he⟩
  | [], _ :: _, hi => by simp [IsElems] at hi
  | _ :: _, [], hi => by simp [IsElems] at hi
end

theorem IsElems.length {φ : Nat → Nat} {N : Nat → Prop} {h : Store} :
    ∀ {es : List Elem} {as : List Nat}, IsElems φ N h es as → as.length = es.length
  | [], [], _ => rfl
  | _ :: _, _ :: _, hi => by
    unfold IsElems at hi
    simp [hi.2.length]
  | [], _ :: _, hi => by simp [IsElems] at hi
  | _ :: _, [], hi => by simp [IsElems] at hi

/-! ## Agreement -/

/-- The exception of the model is the raised value. -/
def Raised (h : Store) (v : Val) : Exc → Prop
  | .invalidChildren tag expected current comparison => ∃ a, v = .obj a ∧ h[a]? =
      some (.inst .InvalidNumberOfChildrenError
        [(.args, .str (invalidChildrenMessage tag expected current comparison)),
         (.«name», .str c!"InvalidNumberOfChildrenError")])
  | e => v = .exc e

/-- The exception of the model is the raised value, and the dictionaries are as in the model. -/
structure RaisedIn (φ : Nat → Nat) (N : Dom) (h : Store) (H' : Heap) (h' : Store) (v : Val) (e : Exc) : Prop where
  raised : Raised h' v e
  ext : Ext h h'
  dicts : Dicts φ N H' h'

theorem RaisedIn.mono {φ : Nat → Nat} {N : Dom} {h0 h : Store} {H' : Heap} {h' : Store} {v : Val} {e : Exc}
    (hr : RaisedIn φ N h H' h' v e) (he : Ext h0 h) : RaisedIn φ N h0 H' h' v e :=
  ⟨hr.raised, he.trans hr.ext, hr.dicts⟩

/-- Proves that a store is later than another. -/
macro "later" : tactic => `(tactic| repeat' (first
  | assumption
  | exact Ext.refl _
  | exact Ext.app _ _
  | refine Ext.app' ?_ _))

/-- A result of the source and one of the model agree. -/
def Agrees (φ : Nat → Nat) (N : Dom) (h : Store) (x : Except Exc Str × Heap) (r : Res Val) : Prop :=
  (∃ s H' h', x = (.ok s, H') ∧ r = .ok (.str s) h' ∧ Ext h h' ∧ Dicts φ N H' h') ∨
    ∃ e H' v h', x = (.error e, H') ∧ r = .exc v h' ∧ RaisedIn φ N h H' h' v e

theorem Agrees.ok {φ : Nat → Nat} {N : Dom} {h : Store} {x : Except Exc Str × Heap} {s s' : Str}
    {H' : Heap} {h' : Store} (hx : x = (.ok s, H')) (hs : s' = s) (he : Ext h h')
    (hd : Dicts φ N H' h') : Agrees φ N h x (.ok (.str s') h') :=
  .inl ⟨s, H', h', hx, by rw [hs], he, hd⟩

theorem Agrees.exc {φ : Nat → Nat} {N : Dom} {h : Store} {x : Except Exc Str × Heap} {e : Exc}
    {H' : Heap} {v : Val} {h' h0 : Store} (hx : x = (.error e, H')) (hr : RaisedIn φ N h0 H' h' v e)
    (he : Ext h h0 := by later) : Agrees φ N h x (.exc v h') :=
  .inr ⟨e, H', v, h', hx, rfl, hr.mono he⟩

theorem Agrees.mono {φ : Nat → Nat} {N : Dom} {h0 h : Store} {x : Except Exc Str × Heap} {r : Res Val}
    (he : Ext h0 h) (ha : Agrees φ N h x r) : Agrees φ N h0 x r := by
  rcases ha with ⟨s, H', h', h1, h2, h3, h4⟩ | hr
  · exact .inl ⟨s, H', h', h1, h2, he.trans h3, h4⟩
  · obtain ⟨e, H', v, h', h1, h2, h3⟩ := hr
    exact .inr ⟨e, H', v, h', h1, h2, h3.mono he⟩

theorem Agrees.less {φ : Nat → Nat} {N N' : Dom} {h : Store} {x : Except Exc Str × Heap} {r : Res Val}
    (hg : Agrees φ N' h x r) (ha : N'.all = N.all) (hs : ∀ r, N r → N' r) : Agrees φ N h x r := by
  rcases hg with ⟨s, H', h', h1, h2, h3, h4⟩ | ⟨e, H', v, h', h1, h2, h3⟩
  · exact .inl ⟨s, H', h', h1, h2, h3, h4.less ha hs⟩
  · exact .inr ⟨e, H', v, h', h1, h2, h3.raised, h3.ext, h3.dicts.less ha hs⟩

/-- With `K` units of fuel the source does what the model does; `f` says how the results
correspond. -/
def Good {α β : Type} (K : Nat) (φ : Nat → Nat) (N : Dom) (h : Store) (x : Except Exc α × Heap) (f : α → β)
    (F : Nat → Res β) : Prop :=
  (∃ s H' h', x = (.ok s, H') ∧ (∀ n, K ≤ n → F n = .ok (f s) h') ∧ Ext h h' ∧ Dicts φ N H' h') ∨
    ∃ e H' v h', x = (.error e, H') ∧ (∀ n, K ≤ n → F n = .exc v h') ∧ RaisedIn φ N h H' h' v e

theorem good_of_runs {K : Nat} {φ : Nat → Nat} {N : Dom} {h : Store} {x : Except Exc Str × Heap}
    {F : Nat → Res Val} (hr : RunsBy K F (Agrees φ N h x)) : Good K φ N h x .str F := by
  obtain ⟨r, ha, hk⟩ := hr
  rcases ha with ⟨s, H', h', h1, h2, h3, h4⟩ | ⟨e, H', v, h', h1, h2, h3⟩
  · exact .inl ⟨s, H', h', h1, fun n hn => by rw [hk n hn, h2], h3, h4⟩
  · exact .inr ⟨e, H', v, h', h1, fun n hn => by rw [hk n hn, h2], h3⟩

theorem Good.less {α β : Type} {K : Nat} {φ : Nat → Nat} {N N' : Dom} {h : Store} {x : Except Exc α × Heap} {f : α → β}
    {F : Nat → Res β} (hg : Good K φ N' h x f F) (ha : N'.all = N.all) (hs : ∀ r, N r → N' r) : Good K φ N h x f F := by
  rcases hg with ⟨s, H', h', h1, h2, h3, h4⟩ | ⟨e, H', v, h', h1, h2, h3⟩
  · exact .inl ⟨s, H', h', h1, h2, h3, h4.less ha hs⟩
  · exact .inr ⟨e, H', v, h', h1, h2, h3.raised, h3.ext, h3.dicts.less ha hs⟩

/-! ## What is as in the model when a conversion begins -/

mutual
/-- The dictionaries of the tables. -/
def tabs : Elem → Nat → Prop
  | .mk m _ r cs => fun s => m = c!"mtable" ∧ s = r ∨ tabsL cs s
/-- The dictionaries of the tables in some elements. -/
def tabsL : List Elem → Nat → Prop
  | [] => fun _ => False
  | e :: es => fun s => tabs e s ∨ tabsL es s
end

mutual
/-- All dictionaries. -/
def Every (P : Nat → Prop) : Elem → Prop
  | .mk _ _ r cs => P r ∧ EveryL P cs
/-- All dictionaries of some elements. -/
def EveryL (P : Nat → Prop) : List Elem → Prop
  | [] => True
  | e :: es => Every P e ∧ EveryL P es
end

mutual
/-- The dictionaries, but for those of tables, are as in the model. -/
def Below (N : Dom) : Elem → Prop
  | .mk m _ r cs => N.all r ∧ (m ≠ c!"mtable" → N r) ∧ BelowL N cs
/-- The same for some elements. -/
def BelowL (N : Dom) : List Elem → Prop
  | [] => True
  | e :: es => Below N e ∧ BelowL N es
end

mutual
/-- The dictionaries, but for those of tables inside tables, are as in the model. -/
def Ripe (N : Dom) : Elem → Prop
  | .mk m _ r cs => N r ∧ (m ≠ c!"mtable" → RipeL N cs) ∧ BelowL N cs
/-- The same for some elements. -/
def RipeL (N : Dom) : List Elem → Prop
  | [] => True
  | e :: es => Ripe N e ∧ RipeL N es
end

mutual
theorem Every.below {N : Dom} : ∀ {e : Elem}, Every N e → Below N e
  | .mk _ _ _ _, h => by
    unfold Every at h
    unfold Below
    exact ⟨N.sub _ h.1, fun _ => h.1, h.2.below⟩
theorem EveryL.below {N : Dom} : ∀ {es : List Elem}, EveryL N es → BelowL N es
  | [], _ => by unfold BelowL; trivial
  | _ :: _, h => by
    unfold EveryL at h
    unfold BelowL
    exact ⟨h.1.below, h.2.below⟩
end

mutual
theorem Every.ripe {N : Dom} : ∀ {e : Elem}, Every N e → Ripe N e
  | .mk _ _ _ _, h => by
    unfold Every at h
    unfold Ripe
    exact ⟨h.1, fun _ => h.2.ripe, h.2.below⟩
theorem EveryL.ripe {N : Dom} : ∀ {es : List Elem}, EveryL N es → RipeL N es
  | [], _ => by unfold RipeL; trivial
  | _ :: _, h => by
    unfold EveryL at h
    unfold RipeL
    exact ⟨h.1.ripe, h.2.ripe⟩
end

mutual
theorem Below.every {N N' : Dom} (ha : ∀ r, N r → N' r) : ∀ {e : Elem}, Below N e → (∀ s, tabs e s → N.all s → N' s) → Every N' e
  | .mk m _ r cs, h, ht => by
    unfold Below at h
    unfold tabs at ht
    unfold Every
    refine ⟨?_, h.2.2.every ha fun s hs => ht s (.inr hs)⟩
    by_cases hm : m = c!"mtable"
    · exact ht r (.inl ⟨hm, rfl⟩) h.1
    · exact ha r (h.2.1 hm)
theorem BelowL.every {N N' : Dom} (ha : ∀ r, N r → N' r) : ∀ {es : List Elem}, BelowL N es → (∀ s, tabsL es s → N.all s → N' s) → EveryL N' es
  | [], _, _ => by unfold EveryL; trivial
  | _ :: _, h, ht => by
    unfold BelowL at h
    unfold tabsL at ht
    unfold EveryL
    exact ⟨h.1.every ha fun s hs => ht s (.inl hs), h.2.every ha fun s hs => ht s (.inr hs)⟩
end

theorem RipeL.mem {N : Dom} : ∀ {es : List Elem}, RipeL N es → ∀ x ∈ es, Ripe N x
  | [], _, _, hx => absurd hx List.not_mem_nil
  | _ :: _, h, x, hx => by
    unfold RipeL at h
    rcases List.mem_cons.1 hx with rfl | hx
    · exact h.1
    · exact h.2.mem x hx

mutual
theorem IsElem.every {φ : Nat → Nat} {N : Nat → Prop} {h : Store} : ∀ {e : Elem} {a : Nat}, IsElem φ N h e a → Every N e
  | .mk _ _ _ _, _, hi => by
    unfold IsElem at hi
    obtain ⟨hr, _, _, _, _, h3⟩ := hi
    unfold Every
    exact ⟨hr, h3.every⟩
theorem IsElems.every {φ : Nat → Nat} {N : Nat → Prop} {h : Store} : ∀ {es : List Elem} {as : List Nat}, IsElems φ N h es as → EveryL N es
  | [], _, _ => by unfold EveryL; trivial
  | _ :: _, _ :: _, hi => by
    unfold IsElems at hi
    unfold EveryL
    exact ⟨hi.1.every, hi.2.every⟩
  | _ :: _, [], hi => by simp [IsElems] at hi
end

theorem IsElem.ripe {φ : Nat → Nat} {N : Nat → Prop} {h : Store} {e : Elem} {a : Nat} (hi : IsElem φ N h e a) :
    Ripe (Dom.whole N) e := Every.ripe (N := Dom.whole N) hi.every

theorem IsElems.ripe {φ : Nat → Nat} {N : Nat → Prop} {h : Store} {es : List Elem} {as : List Nat} (hi : IsElems φ N h es as) :
    ∀ x ∈ es, Ripe (Dom.whole N) x := (EveryL.ripe (N := Dom.whole N) hi.every).mem

theorem Ripe.self {N : Dom} {m vl : Str} {r : Nat} {cs : List Elem} (h : Ripe N (.mk m vl r cs)) : N r := by
  unfold Ripe at h
  exact h.1

theorem Ripe.kids {N : Dom} {m vl : Str} {r : Nat} {cs : List Elem} (h : Ripe N (.mk m vl r cs)) (hm : m ≠ c!"mtable") :
    ∀ x ∈ cs, Ripe N x := by
  unfold Ripe at h
  exact (h.2.1 hm).mem

theorem Ripe.inTable {N : Dom} {m vl : Str} {r : Nat} {cs : List Elem} (h : Ripe N (.mk m vl r cs)) :
    ∀ x ∈ cs, Ripe (N.add (tabsL cs)) x := by
  unfold Ripe at h
  exact (h.2.2.every (N' := N.add (tabsL cs)) (fun _ h => .inl h) fun s hs ha => .inr ⟨hs, ha⟩).ripe.mem

/-! ## The induction hypothesis -/

/-- The adapter. -/
abbrev adapterObj : Obj := .inst .MathMLElementToLatexConverterAdapter []

/-- `adapter.to_latex_converter(e).convert()` does what the model does: a converter is
created, it has a method `convert`, and calling that gives the result.  `K` units of fuel are enough
for each of these. -/
def ElemOK (env : Env) (N : Dom) (K : Nat) (e : Elem) : Prop :=
  ∀ {φ : Nat → Nat} {H : Heap} {h : Store} {ad a : Nat}, h[ad]? = some adapterObj →
    IsElem φ N.all h e a → Dicts φ N H h → ∃ c h1 m,
      (∀ n, K ≤ n → call env n MathMLElementToLatexConverterAdapter_to_latex_converter
        [.obj ad, .obj a] [] h = .ok (.obj c) h1) ∧
      (∀ n, K ≤ n → getAttr ⟨env, call env n, n⟩ (.obj c) .convert h1 = .ok m h1) ∧
      Good K φ N h (convertElem e H) .str (fun n => apply ⟨env, call env n, n⟩ m [] [] h1)

/-- `self._adapter.to_latex_converter(child).convert()` -/
abbrev kidExpr : Expr :=
  .call (.attr (.call (.attr (.attr (.name .self) ._adapter) .to_latex_converter) [.name .child]
    [] []) .convert) [] [] []

/-- The object in charge: where it is and what its adapter is. -/
structure Owner (S : Store) (l : Locals) (ad : Nat) : Prop where
  adapter : S[ad]? = some adapterObj
  self : ∃ c cls fs, look .self l = some (.obj c) ∧ S[c]? = some (.inst cls fs) ∧
    findMethod cls ._adapter = none ∧ look ._adapter fs = some (.obj ad)

theorem Owner.mono {S S' : Store} {l : Locals} {ad : Nat} (ho : Owner S l ad) (he : Ext S S') :
    Owner S' l ad := by
  obtain ⟨h1, c, cls, fs, h2, h3, h4⟩ := ho
  exact ⟨he.get h1 rfl, c, cls, fs, h2, he.get h3 rfl, h4⟩

theorem kidsOf_cons (c : Elem) (cs : List Elem) :
    kidsOf (c :: cs) = (c, convertElem c) :: kidsOf cs := by
  rw [kidsOf]; rfl

theorem run_kid {K : Nat} {φ : Nat → Nat} {N : Dom} {H : Heap} {S : Store} {l : Locals} {ad a : Nat} {e : Elem}
    (hok : ElemOK env N K e) (ho : Owner S l ad) (hi : IsElem φ N.all S e a) (hd : Dicts φ N H S) :
    Good K φ N S (convertElem e H) .str
      (fun n => eval ⟨env, call env n, n⟩ kidExpr ((.child, .obj a) :: l) S) := by
  obtain ⟨h1, c, cls, fs, h2, h3, h4, h5⟩ := ho
  obtain ⟨c', g, m, r1, r2, r3⟩ := hok h1 hi hd
  rcases r3 with ⟨s, H', h', hx, r3, he, hd'⟩ | ⟨e, H', v, h', hx, r3, hr⟩
  · refine .inl ⟨s, H', h', hx, fun n hn => ?_, he, hd'⟩
    have r1 := r1 n (by omega)
    have r2 := r2 n (by omega)
    have r3 := r3 n (by omega)
    dsimp only at r3 ⊢
    sym [] [h1, h2, h3, h4, h5, r1, r2, r3]
  · refine .inr ⟨e, H', v, h', hx, fun n hn => ?_, hr⟩
    have r1 := r1 n (by omega)
    have r2 := r2 n (by omega)
    have r3 := r3 n (by omega)
    dsimp only at r3 ⊢
    sym [] [h1, h2, h3, h4, h5, r1, r2, r3]

theorem run_kids {K : Nat} {φ : Nat → Nat} {N : Dom} {l : Locals} {ad : Nat} :
    ∀ {cs : List Elem} {as : List Nat} {S : Store} {H : Heap}, (∀ x ∈ cs, ElemOK env N K x) → Owner S l ad →
      IsElems φ N.all S cs as → Dicts φ N H S →
      Good K φ N S (runKids (kidsOf cs) H) (fun ss => ss.map .str) (fun n =>
        compRes (holds ⟨env, call env n, n⟩ []) (eval ⟨env, call env n, n⟩ kidExpr) .child l
          (as.map .obj) S)
  | [], [], S, H, _, _, _, hd =>
    .inl ⟨[], H, S, rfl, fun n _ => by simp [compRes], .refl S, hd⟩
  | c :: cs, a :: as, S, H, hok, ho, hi, hd => by
    unfold IsElems at hi
    rw [kidsOf_cons]
    unfold runKids
    rcases run_kid (env := env) (hok c List.mem_cons_self) ho hi.1 hd with
      ⟨s, H', h', hx, hr, he, hd'⟩ | ⟨e, H', v, h', hx, hr, hR⟩
    · rw [Stack.M_bind_ok hx]
      rcases run_kids (fun x hx => hok x (List.mem_cons_of_mem _ hx)) (ho.mono he) (hi.2.mono he) hd' with
        ⟨ss, H'', h'', hx', hr', he', hd''⟩ | ⟨e, H'', v, h'', hx', hr', hR⟩
      · rw [Stack.M_bind_ok hx']
        refine .inl ⟨s :: ss, H'', h'', rfl, fun n hn => ?_, he.trans he', hd''⟩
        have hr := hr n (by omega)
        have hr' := hr' n (by omega)
        dsimp only at hr hr' ⊢
        rw [List.map_cons, compRes, holds, Res.bind_ok, if_pos rfl, hr, Res.bind_ok, hr', Res.bind_ok]
        rfl
      · rw [Stack.M_bind_error hx']
        refine .inr ⟨e, H'', v, h'', rfl, fun n hn => ?_, hR.mono he⟩
        have hr := hr n (by omega)
        have hr' := hr' n (by omega)
        dsimp only at hr hr' ⊢
        rw [List.map_cons, compRes, holds, Res.bind_ok, if_pos rfl, hr, Res.bind_ok, hr']
        rfl
    · rw [Stack.M_bind_error hx]
      refine .inr ⟨e, H', v, h', rfl, fun n hn => ?_, hR⟩
      have hr := hr n hn
      dsimp only at hr ⊢
      rw [List.map_cons, compRes, holds, Res.bind_ok, if_pos rfl, hr]
      rfl
  | [], _ :: _, _, _, _, _, hi, _ => by simp [IsElems] at hi
  | _ :: _, [], _, _, _, _, hi, _ => by simp [IsElems] at hi

end Verif.Src
