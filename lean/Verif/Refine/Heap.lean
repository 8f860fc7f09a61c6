import Verif.Refine.Pure

/-!
# Refinement: the heap model computes the pure function

Key invariant: only the `innerTable` entries of dictionaries in a set `S` (the tables below
another table) are ever written, and the tables in the already marked set `F` are marked.
-/

namespace Verif

/-- `act` started in any heap satisfying `I` has outcome `r` and re-establishes `I`. -/
def Sim {α : Type} (I : Heap → Prop) (act : M α) (r : Except Exc α) : Prop :=
  ∀ h, I h → ∃ h', act h = (r, h') ∧ I h'

namespace Sim
variable {α β : Type} {I : Heap → Prop}

theorem ok (a : α) : Sim I (pure a : M α) (.ok a) := fun h hI => ⟨h, rfl, hI⟩

theorem err (e : Exc) : Sim I (throw e : M α) (.error e) := fun h hI => ⟨h, rfl, hI⟩

theorem bind {x : M α} {r : Except Exc α} {f : α → M β} {g : α → Except Exc β}
    (hx : Sim I x r) (hf : ∀ a, Sim I (f a) (g a)) : Sim I (x >>= f) (r >>= g) := by
  intro h hI
  obtain ⟨h1, e1, hI1⟩ := hx h hI
  cases r with
  | error e =>
    refine ⟨h1, ?_, hI1⟩
    show (ExceptT.bind x f) h = _
    simp only [ExceptT.bind, ExceptT.mk, Bind.bind, StateT.bind, ExceptT.bindCont, e1]
    rfl
  | ok a =>
    obtain ⟨h2, e2, hI2⟩ := hf a h1 hI1
    refine ⟨h2, ?_, hI2⟩
    show (ExceptT.bind x f) h = _
    simp only [ExceptT.bind, ExceptT.mk, Bind.bind, StateT.bind, ExceptT.bindCont, e1]
    exact e2

theorem attrs {r : Nat} {f : Attrs → M β} {res : Except Exc β}
    (hf : ∀ h, I h → ∃ h', f (h.cells r) h = (res, h') ∧ I h') :
    Sim I (attributes r >>= f) res := by
  intro h hI
  exact hf h hI

theorem attrs_const {r : Nat} {a : Attrs} {f : Attrs → M β} {res : Except Exc β}
    (ha : ∀ h, I h → h.cells r = a) (hf : Sim I (f a) res) :
    Sim I (attributes r >>= f) res := by
  refine attrs fun h hI => ?_
  rw [ha h hI]
  exact hf h hI

end Sim

/-- Two dictionaries that differ in `innerTable` at most. -/
def Agree (a a' : Attrs) : Prop := ∀ k d, k ≠ innerTable → Attrs.getD a k d = Attrs.getD a' k d

theorem Sim.attrs_agree {β : Type} {I : Heap → Prop} {r : Nat} {a : Attrs} {f : Attrs → M β}
    {res : Except Exc β} (ha : ∀ h, I h → Agree (h.cells r) a) (hfa : ∀ a', Agree a' a → f a' = f a)
    (hf : Sim I (f a) res) : Sim I (attributes r >>= f) res := by
  refine attrs fun h hI => ?_
  rw [hfa _ (ha h hI)]
  exact hf h hI

/-- The invariant (see the head of the file). -/
structure HInv (S F : Nat → Prop) (c0 : Nat → Attrs) (h : Heap) : Prop where
  frame : ∀ r, ¬ S r → h.cells r = c0 r
  agree : ∀ r, Agree (h.cells r) (c0 r)
  marked : ∀ r, F r → Attrs.getD (h.cells r) innerTable [] ≠ []

mutual
/-- `S` is exactly the set of tables below a table (inside the element), `b` telling whether
the element itself is below a table. -/
def WfE (S : Nat → Prop) (b : Bool) : Elem → Prop
  | .mk n _ r cs =>
    (if n = c!"mtable" ∧ b = true then S r else ¬ S r) ∧ WfEs S (b || n == c!"mtable") cs
def WfEs (S : Nat → Prop) (b : Bool) : List Elem → Prop
  | [] => True
  | e :: es => WfE S b e ∧ WfEs S b es
end

mutual
/-- The same for the tables only: `S` contains all tables below a table, and none of the others; it may
contain dictionaries of elements that are no tables. -/
def WfT (S : Nat → Prop) (b : Bool) : Elem → Prop
  | .mk n _ r cs =>
    (n = c!"mtable" → if b = true then S r else ¬ S r) ∧ WfTs S (b || n == c!"mtable") cs
def WfTs (S : Nat → Prop) (b : Bool) : List Elem → Prop
  | [] => True
  | e :: es => WfT S b e ∧ WfTs S b es
end

mutual
theorem WfE.toT {S : Nat → Prop} (e : Elem) (b : Bool) (h : WfE S b e) : WfT S b e := by
  obtain ⟨n, v, r, cs⟩ := e
  rw [WfE] at h
  rw [WfT]
  refine ⟨fun hn => ?_, WfEs.toT cs _ h.2⟩
  have h1 := h.1
  cases b <;> simpa [hn] using h1
theorem WfEs.toT {S : Nat → Prop} (es : List Elem) (b : Bool) (h : WfEs S b es) : WfTs S b es := by
  match es with
  | [] => trivial
  | e :: es =>
    rw [WfEs] at h
    rw [WfTs]
    exact ⟨WfE.toT e b h.1, WfEs.toT es b h.2⟩
end

mutual
/-- References of all tables in an element. -/
def tableRefs : Elem → List Nat
  | .mk n _ r cs => (if n = c!"mtable" then [r] else []) ++ tableRefsL cs
def tableRefsL : List Elem → List Nat
  | [] => []
  | e :: es => tableRefs e ++ tableRefsL es
end

mutual
/-- The element with the dictionaries of the heap. -/
def view (c0 : Nat → Attrs) : Elem → PElem
  | .mk n v r cs => .mk n v (c0 r) (views c0 cs)
def views (c0 : Nat → Attrs) : List Elem → List PElem
  | [] => []
  | e :: es => view c0 e :: views c0 es
end

/-! ## Dictionaries -/

theorem Dict.get?_map_set {β : Type} (d : Dict β) (k k' : Str) (v : β) :
    Dict.get? (d.map (fun p => if p.1 = k then (k, v) else p)) k' =
      if k' = k then (if d.any (fun p => p.1 == k) then some v else none) else Dict.get? d k' := by
  induction d with
  | nil => simp [Dict.get?]
  | cons p d ih =>
    obtain ⟨q, w⟩ := p
    rw [List.map_cons]
    by_cases hq : q = k
    · subst hq
      simp only [if_true, Dict.get?, ih]
      by_cases hk : k' = q
      · subst hk; simp; split <;> simp_all
      · simp [hk, Ne.symm hk]
    · simp only [if_neg hq, Dict.get?, ih]
      by_cases hk : k' = k
      · subst hk; simp [hq]; split <;> simp_all
      · simp [hk]

theorem Dict.get?_append {β : Type} (d : Dict β) (k k' : Str) (v : β) :
    Dict.get? (d ++ [(k, v)]) k' = if k = k' then some v else Dict.get? d k' := by
  induction d with
  | nil => simp [Dict.get?]
  | cons p d ih =>
    obtain ⟨q, w⟩ := p
    simp only [List.cons_append, Dict.get?, ih]
    by_cases hk : k = k' <;> simp [hk]

/-- `d[k] = v; d.get(k')` -/
theorem Dict.get?_set {β : Type} (d : Dict β) (k k' : Str) (v : β) :
    Dict.get? (Dict.set d k v) k' = if k' = k then some v else Dict.get? d k' := by
  unfold Dict.set
  split
  · rename_i hany; rw [Dict.get?_map_set]; simp [hany]
  · rw [Dict.get?_append]; simp [eq_comm]

theorem Attrs.getD_set (a : Attrs) (k k' v d : Str) :
    Attrs.getD (Dict.set a k v) k' d = if k' = k then v else Attrs.getD a k' d := by
  unfold Attrs.getD; rw [Dict.get?_set]; split <;> simp

/-! ## Marking -/

theorem innerTable_ne : innerTable ≠ [] := by decide

theorem HInv.setItem {S F : Nat → Prop} {c0 : Nat → Attrs} {h : Heap} (H : HInv S F c0 h)
    (r : Nat) (hr : S r) :
    HInv S (fun x => F x ∨ x = r) c0 (h.setItem r innerTable innerTable) := by
  constructor
  · intro x hx
    have : x ≠ r := fun e => hx (e ▸ hr)
    simp [Heap.setItem, this, H.frame x hx]
  · intro x k d hk
    by_cases e : x = r
    · subst e
      simp only [Heap.setItem, if_true]
      rw [Attrs.getD_set, if_neg (by simpa using hk)]
      exact H.agree x k d hk
    · simpa [Heap.setItem, e] using H.agree x k d hk
  · intro x hx
    by_cases e : x = r
    · subst e
      simp [Heap.setItem, Attrs.getD_set, innerTable_ne]
    · have hF : F x := by rcases hx with hx | hx; exact hx; exact absurd hx e
      simpa [Heap.setItem, e] using H.marked x hF

theorem HInv.mono {S F F' : Nat → Prop} {c0 : Nat → Attrs} {h : Heap} (H : HInv S F c0 h)
    (hF : ∀ r, F' r → F r) : HInv S F' c0 h := ⟨H.frame, H.agree, fun r hr => H.marked r (hF r hr)⟩

mutual
theorem addFlag1_spec {S : Nat → Prop} {c0 : Nat → Attrs} (e : Elem) :
    ∀ (F : Nat → Prop) (h : Heap), HInv S F c0 h → (∀ r ∈ tableRefs e, S r) →
      ∃ h', addFlag1 c!"mtable" innerTable e h = (.ok (), h') ∧
        HInv S (fun x => F x ∨ x ∈ tableRefs e) c0 h' := by
  obtain ⟨n, v, r, cs⟩ := e
  intro F h H hS
  by_cases hn : n = c!"mtable"
  · have h1 := H.setItem r (hS r (by simp [tableRefs, hn]))
    obtain ⟨h', e', H'⟩ := addFlags_spec (S := S) (c0 := c0) cs _ _ h1
      (fun r hr => hS r (by simp [tableRefs, hr]))
    refine ⟨h', ?_, H'.mono ?_⟩
    · subst hn
      rw [addFlag1]
      exact e'
    · intro x hx
      simp [tableRefs, hn] at hx
      rcases hx with hx | hx | hx <;> simp [hx]
  · obtain ⟨h', e', H'⟩ := addFlags_spec (S := S) (c0 := c0) cs F h H
      (fun r hr => hS r (by simp [tableRefs, hr]))
    refine ⟨h', ?_, H'.mono ?_⟩
    · rw [addFlag1, if_neg (by simpa using hn)]
      exact e'
    · intro x hx
      simpa [tableRefs, hn] using hx
theorem addFlags_spec {S : Nat → Prop} {c0 : Nat → Attrs} (es : List Elem) :
    ∀ (F : Nat → Prop) (h : Heap), HInv S F c0 h → (∀ r ∈ tableRefsL es, S r) →
      ∃ h', addFlagRecursiveIfName c!"mtable" innerTable es h = (.ok (), h') ∧
        HInv S (fun x => F x ∨ x ∈ tableRefsL es) c0 h' := by
  intro F h H hS
  match es with
  | [] => exact ⟨h, by rw [addFlagRecursiveIfName]; rfl, by simpa [tableRefsL] using H⟩
  | e :: es =>
    obtain ⟨h1, e1, H1⟩ := addFlag1_spec (S := S) (c0 := c0) e F h H
      (fun r hr => hS r (by simp [tableRefsL, hr]))
    obtain ⟨h2, e2, H2⟩ := addFlags_spec (S := S) (c0 := c0) es _ h1 H1
      (fun r hr => hS r (by simp [tableRefsL, hr]))
    refine ⟨h2, ?_, H2.mono ?_⟩
    · rw [addFlagRecursiveIfName]
      show (ExceptT.bind (m := StateM Heap) _ _ : M Unit) h = _
      simp only [ExceptT.bind, ExceptT.mk, Bind.bind, StateT.bind, ExceptT.bindCont, e1]
      exact e2
    · intro x hx
      simp only [tableRefsL, List.mem_append] at hx
      rcases hx with hx | hx | hx <;> simp [hx]
end

mutual
theorem tableRefs_sub {S : Nat → Prop} (e : Elem) (h : WfT S true e) : ∀ r ∈ tableRefs e, S r := by
  obtain ⟨n, v, r, cs⟩ := e
  rw [WfT] at h
  intro x hx
  simp only [tableRefs, List.mem_append] at hx
  rcases hx with hx | hx
  · split at hx
    · rename_i hn
      simp only [List.mem_singleton] at hx
      subst hx
      simpa using h.1 hn
    · simp at hx
  · exact tableRefsL_sub cs (by simpa using h.2) x hx
theorem tableRefsL_sub {S : Nat → Prop} (es : List Elem) (h : WfTs S true es) :
    ∀ r ∈ tableRefsL es, S r := by
  match es with
  | [] => simp [tableRefsL]
  | e :: es =>
    rw [WfTs] at h
    intro x hx
    simp only [tableRefsL, List.mem_append] at hx
    rcases hx with hx | hx
    · exact tableRefs_sub e h.1 x hx
    · exact tableRefsL_sub es h.2 x hx
end

mutual
theorem pHasRel1_view (c0 : Nat → Attrs) (name : Str) (e : Elem) :
    pHasRel1 name (view c0 e) = hasRelativeOfName1 name e := by
  obtain ⟨n, v, r, cs⟩ := e
  rw [view, pHasRel1, hasRelativeOfName1, pHasRel_views]
theorem pHasRel_views (c0 : Nat → Attrs) (name : Str) (es : List Elem) :
    pHasRel name (views c0 es) = isThereRelativeOfName name es := by
  match es with
  | [] => simp [views, pHasRel, isThereRelativeOfName]
  | e :: es => rw [views, pHasRel, isThereRelativeOfName, pHasRel1_view, pHasRel_views]
end

/-! ## Simulation of lists of children -/

/-- Heap-model children and pure children that correspond. -/
inductive KidsRel (c0 : Nat → Attrs) (I : Heap → Prop) : List Kid → List PKid → Prop where
  | nil : KidsRel c0 I [] []
  | cons {k : Kid} {pk : PKid} {ks : List Kid} {pks : List PKid} :
      pk.1 = view c0 k.1 → Sim I k.2 pk.2 → KidsRel c0 I ks pks → KidsRel c0 I (k :: ks) (pk :: pks)

namespace KidsRel
variable {c0 : Nat → Attrs} {I : Heap → Prop}

theorem length {ks : List Kid} {pks : List PKid} (h : KidsRel c0 I ks pks) :
    ks.length = pks.length := by
  induction h with
  | nil => rfl
  | cons _ _ _ ih => simp [ih]

theorem run {ks : List Kid} {pks : List PKid} (h : KidsRel c0 I ks pks) :
    Sim I (runKids ks) (seqAll pks) := by
  induction h with
  | nil => exact Sim.ok _
  | cons _ h2 _ ih => exact Sim.bind h2 fun a => Sim.bind ih fun b => Sim.ok _

theorem views {ks : List Kid} {pks : List PKid} (h : KidsRel c0 I ks pks) :
    pks.map (·.1) = views c0 (ks.map (·.1)) := by
  induction h with
  | nil => simp [Verif.views]
  | cons h1 _ _ ih => simp [Verif.views, h1, ih]

theorem inv_nil {pks : List PKid} (h : KidsRel c0 I [] pks) : pks = [] := by cases h; rfl

theorem inv_cons {k : Kid} {ks : List Kid} {pks : List PKid} (h : KidsRel c0 I (k :: ks) pks) :
    ∃ pk pks', pks = pk :: pks' ∧ pk.1 = view c0 k.1 ∧ Sim I k.2 pk.2 ∧ KidsRel c0 I ks pks' := by
  cases h with
  | cons a b c => exact ⟨_, _, rfl, a, b, c⟩
end KidsRel

theorem views_length (c0 : Nat → Attrs) (es : List Elem) : (views c0 es).length = es.length := by
  induction es with
  | nil => simp [views]
  | cons e es ih => simp [views, ih]

theorem view_children_length (c0 : Nat → Attrs) (e : Elem) :
    (view c0 e).children.length = e.children.length := by
  obtain ⟨n, v, r, cs⟩ := e
  simp [view, PElem.children, Elem.children, views_length]

theorem view_name (c0 : Nat → Attrs) (e : Elem) : (view c0 e).name = e.name := by
  obtain ⟨n, v, r, cs⟩ := e; simp [view, PElem.name, Elem.name]

theorem base_sim {c0 : Nat → Attrs} {I : Heap → Prop} {k : Kid} {pk : PKid}
    (h1 : pk.1 = view c0 k.1) (h2 : Sim I k.2 pk.2) : Sim I (handleBaseChild k) (pbase pk) := by
  unfold handleBaseChild pbase
  refine Sim.bind h2 fun a => ?_
  rw [h1, view_children_length]
  split <;> exact Sim.ok _

theorem script_sim {I : Heap → Prop} {k : Kid} {r : Res} {f : Str → M Str} {g : Str → Res}
    (h : Sim I k.2 r) (hf : ∀ s, Sim I (f (bracketWrap s)) (g s)) :
    Sim I (handleScriptChild k >>= f) (r >>= g) := by
  have h1 : Sim I (handleScriptChild k) (r >>= fun s => pure (bracketWrap s)) :=
    Sim.bind h fun a => Sim.ok _
  intro hp H
  obtain ⟨h2, e2, H2⟩ := h1 hp H
  cases r with
  | error e =>
    refine ⟨h2, ?_, H2⟩
    show (ExceptT.bind (m := StateM Heap) _ _ : M Str) hp = _
    simp only [ExceptT.bind, ExceptT.mk, Bind.bind, StateT.bind, e2]
    rfl
  | ok a =>
    obtain ⟨h3, e3, H3⟩ := hf a h2 H2
    refine ⟨h3, ?_, H3⟩
    show (ExceptT.bind (m := StateM Heap) _ _ : M Str) hp = _
    simp only [ExceptT.bind, ExceptT.mk, Bind.bind, StateT.bind, e2]
    exact e3

theorem pair_sim {I : Heap → Prop} {k1 k2 : Kid} {pk1 pk2 : PKid} (p : Str)
    (h1 : Sim I k1.2 pk1.2) (h2 : Sim I k2.2 pk2.2) :
    Sim I (scriptPair p k1 k2) (ppair p pk1 pk2) :=
  Sim.bind h1 fun _ => Sim.bind h2 fun _ => Sim.ok _

theorem isPre_eq {c0 : Nat → Attrs} {k : Kid} {pk : PKid} (h1 : pk.1 = view c0 k.1) :
    pIsPre pk = isPrescripts k := by
  unfold pIsPre isPrescripts; rw [h1, view_name]

theorem pre_sim {c0 : Nat → Attrs} {I : Heap → Prop} {ks : List Kid} {pks : List PKid}
    (h : KidsRel c0 I ks pks) : Sim I (prescriptLatex ks) (pprescript pks) := by
  cases h with
  | nil => exact Sim.ok _
  | cons a0 b0 h =>
  cases h with
  | nil => exact Sim.ok _
  | cons a1 b1 h =>
  cases h with
  | nil => exact Sim.ok _
  | cons a2 b2 h =>
  cases h with
  | nil => exact Sim.ok _
  | cons a3 b3 h =>
    simp only [prescriptLatex, pprescript, isPre_eq a1, isPre_eq a3]
    split
    · exact pair_sim _ b2 b3
    · cases h with
      | nil => exact Sim.ok _
      | cons a4 b4 h =>
      cases h with
      | nil => exact Sim.ok _
      | cons a5 b5 h =>
        dsimp only
        split
        · exact pair_sim _ b4 b5
        · exact Sim.ok _

theorem post_sim {c0 : Nat → Attrs} {I : Heap → Prop} {ks : List Kid} {pks : List PKid}
    (h : KidsRel c0 I ks pks) : Sim I (postscriptLatex ks) (ppostscript pks) := by
  cases h with
  | nil => exact Sim.ok _
  | cons a0 b0 h =>
  cases h with
  | nil => exact Sim.ok _
  | cons a1 b1 h =>
  cases h with
  | nil => exact Sim.ok _
  | cons a2 b2 h =>
    simp only [postscriptLatex, ppostscript, isPre_eq a1]
    split
    · exact Sim.ok _
    · exact pair_sim _ b1 b2

/-! ## Simulation of one node -/

theorem Dict.get?_mem {β : Type} {d : Dict β} {k : Str} {v : β} (h : Dict.get? d k = some v) :
    (k, v) ∈ d := by
  induction d with
  | nil => simp [Dict.get?] at h
  | cons p d ih =>
    obtain ⟨q, w⟩ := p
    simp only [Dict.get?] at h
    split at h
    · rename_i heq
      simp only [Option.some.injEq] at h
      subst h
      exact List.mem_cons_of_mem _ (ih heq)
    · split at h
      · rename_i hq
        simp only [Option.some.injEq] at h
        subst h hq
        exact List.mem_cons_self
      · exact absurd h (by simp)

theorem classify_mem {n : Str} {k : Kind} (h : classify n = k) (hk : k ≠ .spacing) :
    (n, k) ∈ dispatchTable := by
  unfold classify at h
  by_cases h0 : n = []
  · subst h0
    revert h; revert hk
    simp only [ne_eq, not_true_eq_false, if_false]
    intro hk h
    exact absurd (h.symm.trans (by decide)) hk
  · simp only [h0, ne_eq, not_false_eq_true, if_true] at h
    cases hg : Dict.get? dispatchTable n with
    | none => rw [hg] at h; exact absurd h.symm hk
    | some k' =>
      rw [hg] at h
      simp only [Option.getD_some] at h
      subst h
      exact Dict.get?_mem hg

theorem classify_mtable (n : Str) : classify n = .mtable ↔ n = c!"mtable" := by
  constructor
  · intro h
    have h1 := classify_mem h (by decide)
    have h2 : ∀ p ∈ dispatchTable, p.2 = Kind.mtable → p.1 = c!"mtable" := by decide
    exact h2 _ h1 rfl
  · rintro rfl; decide

/-- The converter of one node simulates `pnode`. -/
theorem construct_sim {S F : Nat → Prop} {c0 : Nat → Attrs} {b : Bool} {name value : Str}
    {aref : Nat} {cs : List Elem} {kids : List Kid} {pkids : List PKid}
    (hS : name = c!"mtable" → if b = true then S aref ∧ F aref else ¬ S aref)
    (hT : classify name = .mtable → ∀ r ∈ tableRefsL cs, S r)
    (hcs : kids.map (·.1) = cs)
    (hk : ∀ F', (∀ r, F r → F' r) → (classify name = .mtable → ∀ r ∈ tableRefsL cs, F' r) →
      KidsRel c0 (HInv S F' c0) kids pkids) :
    Sim (HInv S F c0) (construct (classify name) name value aref cs kids >>= id)
      (pnode (classify name) b name value (c0 aref) pkids) := by
  by_cases hmt : classify name = .mtable
  · -- tables
    have hname := (classify_mtable name).1 hmt
    intro h H
    obtain ⟨h1, e1, H1⟩ := addFlags_spec (S := S) (c0 := c0) cs F h H (hT hmt)
    have hk' := hk _ (fun r hr => Or.inl hr) (fun _ r hr => Or.inr hr)
    have hb : (b = true ∧ F aref) ∨ (b = false ∧ ¬ S aref) := by
      have := hS hname
      cases b <;> simp_all
    have hsim : Sim (HInv S (fun x => F x ∨ x ∈ tableRefsL cs) c0) (mtableConvert aref kids)
        (pnode (classify name) b name value (c0 aref) pkids) := by
      rw [hmt]
      refine Sim.bind hk'.run fun ss => Sim.attrs fun h2 H2 => ?_
      refine ⟨h2, ?_, H2⟩
      rcases hb with ⟨rfl, hF⟩ | ⟨rfl, hnS⟩
      · have := H2.marked aref (Or.inl hF)
        simp [this]; rfl
      · rw [H2.frame aref hnS]
        by_cases hi : Attrs.getD (c0 aref) innerTable [] = []
        · simp [hi]; rfl
        · simp [hi]; rfl
    obtain ⟨h3, e3, H3⟩ := hsim h1 H1
    refine ⟨h3, ?_, H3.mono fun r hr => Or.inl hr⟩
    rw [← e3, hmt]
    show (ExceptT.bind (m := StateM Heap) (ExceptT.bind (m := StateM Heap) _ _) _ : M Str) h = _
    simp only [ExceptT.bind, ExceptT.mk, Bind.bind, StateT.bind, ExceptT.bindCont, e1]
    rfl
  · replace hk := hk F (fun r hr => hr) (fun h => absurd h hmt)
    have hname : name ≠ c!"mtable" := fun h => hmt ((classify_mtable name).2 h)
    have ha : ∀ h, HInv S F c0 h → Agree (h.cells aref) (c0 aref) := fun h H => H.agree aref
    have hlen := hk.length
    have hv : c!"mathvariant" ≠ innerTable := by decide
    generalize hkind : classify name = kind at *
    cases kind with
    | mtable => exact absurd rfl hmt
    | math => exact Sim.bind hk.run fun _ => Sim.ok _
    | mi =>
      exact Sim.attrs_agree (f := fun a => pure (miConvert value a)) ha
        (fun a' h => by simp only [miConvert, getMathVariant, h _ _ hv]) (Sim.ok _)
    | mo => exact Sim.ok _
    | mn => exact Sim.ok _
    | msqrt => exact Sim.bind hk.run fun _ => Sim.ok _
    | mfenced =>
      refine Sim.attrs_agree (r := aref) (a := c0 aref) (f := fun a => mfencedConvert
        (Attrs.getD a c!"open" []) (Attrs.getD a c!"close" [])
        ((Attrs.getD a c!"separators" []).map (fun c => [c])) kids) ha
        (fun a' h => by
          simp only [h c!"open" _ (by decide), h c!"close" _ (by decide), h c!"separators" _ (by decide)]) ?_
      refine Sim.bind hk.run fun ss => ?_
      rw [hk.views, pHasRel_views]
      split <;> exact Sim.ok _
    | mfrac =>
      rcases kids with _ | ⟨k0, _ | ⟨k1, _ | ⟨k2, ks⟩⟩⟩
      · cases hk.inv_nil; exact Sim.err _
      · obtain ⟨p0, _, rfl, a0, b0, hk⟩ := hk.inv_cons
        cases hk.inv_nil; exact Sim.err _
      · obtain ⟨p0, _, rfl, a0, b0, hk⟩ := hk.inv_cons
        obtain ⟨p1, _, rfl, a1, b1, hk⟩ := hk.inv_cons
        cases hk.inv_nil
        refine Sim.bind b0 fun _ => Sim.bind b1 fun _ => ?_
        refine Sim.attrs_agree ha (fun a' h => by simp only [h c!"bevelled" _ (by decide)]) ?_
        split <;> exact Sim.ok _
      · obtain ⟨p0, _, rfl, a0, b0, hk⟩ := hk.inv_cons
        obtain ⟨p1, _, rfl, a1, b1, hk⟩ := hk.inv_cons
        obtain ⟨p2, _, rfl, a2, b2, hk⟩ := hk.inv_cons
        show Sim _ (throw (.invalidChildren name 2 _ c!"exactly")) (.error (.invalidChildren name 2 _ c!"exactly"))
        rw [hlen]; exact Sim.err _
    | mroot =>
      rcases kids with _ | ⟨k0, _ | ⟨k1, _ | ⟨k2, ks⟩⟩⟩
      · cases hk.inv_nil; exact Sim.err _
      · obtain ⟨p0, _, rfl, a0, b0, hk⟩ := hk.inv_cons
        cases hk.inv_nil; exact Sim.err _
      · obtain ⟨p0, _, rfl, a0, b0, hk⟩ := hk.inv_cons
        obtain ⟨p1, _, rfl, a1, b1, hk⟩ := hk.inv_cons
        cases hk.inv_nil
        exact Sim.bind b0 fun _ => Sim.bind b1 fun _ => Sim.ok _
      · obtain ⟨p0, _, rfl, a0, b0, hk⟩ := hk.inv_cons
        obtain ⟨p1, _, rfl, a1, b1, hk⟩ := hk.inv_cons
        obtain ⟨p2, _, rfl, a2, b2, hk⟩ := hk.inv_cons
        show Sim _ (throw (.invalidChildren name 2 _ c!"exactly")) (.error (.invalidChildren name 2 _ c!"exactly"))
        rw [hlen]; exact Sim.err _
    | maction =>
      show Sim _ (mactionConvert aref kids) _
      unfold mactionConvert
      refine Sim.attrs_agree (r := aref) (a := c0 aref) ha
        (fun a' h => by simp only [h c!"actiontype" _ (by decide)]) ?_
      by_cases hc : Attrs.getD (c0 aref) c!"actiontype" [] = c!"toggle" ∨
          Attrs.getD (c0 aref) c!"actiontype" [] = []
      · simp only [pnode, hc, if_true]
        exact Sim.bind hk.run fun _ => Sim.ok _
      · simp only [pnode, hc, if_false]
        cases hk with
        | nil => exact Sim.err _
        | cons a0 b0 hk => exact b0
    | menclose =>
      refine Sim.attrs_agree (r := aref) (a := c0 aref) (f := fun a => mencloseConvert
        (Attrs.getD a c!"notation" c!"longdiv") kids) ha
        (fun a' h => by simp only [h c!"notation" _ (by decide)]) ?_
      exact Sim.bind hk.run fun _ => Sim.ok _
    | merror => exact Sim.bind hk.run fun _ => Sim.ok _
    | void => exact Sim.ok _
    | msup =>
      rcases kids with _ | ⟨k0, _ | ⟨k1, _ | ⟨k2, ks⟩⟩⟩
      · cases hk.inv_nil; exact Sim.err _
      · obtain ⟨p0, _, rfl, a0, b0, hk⟩ := hk.inv_cons
        cases hk.inv_nil; exact Sim.err _
      · obtain ⟨p0, _, rfl, a0, b0, hk⟩ := hk.inv_cons
        obtain ⟨p1, _, rfl, a1, b1, hk⟩ := hk.inv_cons
        cases hk.inv_nil
        exact Sim.bind (base_sim a0 b0) fun _ => script_sim b1 fun _ => Sim.ok _
      · obtain ⟨p0, _, rfl, a0, b0, hk⟩ := hk.inv_cons
        obtain ⟨p1, _, rfl, a1, b1, hk⟩ := hk.inv_cons
        obtain ⟨p2, _, rfl, a2, b2, hk⟩ := hk.inv_cons
        show Sim _ (throw (.invalidChildren name 2 _ c!"exactly")) (.error (.invalidChildren name 2 _ c!"exactly"))
        rw [hlen]; exact Sim.err _
    | msub =>
      rcases kids with _ | ⟨k0, _ | ⟨k1, _ | ⟨k2, ks⟩⟩⟩
      · cases hk.inv_nil; exact Sim.err _
      · obtain ⟨p0, _, rfl, a0, b0, hk⟩ := hk.inv_cons
        cases hk.inv_nil; exact Sim.err _
      · obtain ⟨p0, _, rfl, a0, b0, hk⟩ := hk.inv_cons
        obtain ⟨p1, _, rfl, a1, b1, hk⟩ := hk.inv_cons
        cases hk.inv_nil
        exact Sim.bind (base_sim a0 b0) fun _ => script_sim b1 fun _ => Sim.ok _
      · obtain ⟨p0, _, rfl, a0, b0, hk⟩ := hk.inv_cons
        obtain ⟨p1, _, rfl, a1, b1, hk⟩ := hk.inv_cons
        obtain ⟨p2, _, rfl, a2, b2, hk⟩ := hk.inv_cons
        show Sim _ (throw (.invalidChildren name 2 _ c!"exactly")) (.error (.invalidChildren name 2 _ c!"exactly"))
        rw [hlen]; exact Sim.err _
    | msubsup =>
      rcases kids with _ | ⟨k0, _ | ⟨k1, _ | ⟨k2, _ | ⟨k3, ks⟩⟩⟩⟩
      · cases hk.inv_nil; exact Sim.err _
      · obtain ⟨p0, _, rfl, a0, b0, hk⟩ := hk.inv_cons
        cases hk.inv_nil; exact Sim.err _
      · obtain ⟨p0, _, rfl, a0, b0, hk⟩ := hk.inv_cons
        obtain ⟨p1, _, rfl, a1, b1, hk⟩ := hk.inv_cons
        cases hk.inv_nil; exact Sim.err _
      · obtain ⟨p0, _, rfl, a0, b0, hk⟩ := hk.inv_cons
        obtain ⟨p1, _, rfl, a1, b1, hk⟩ := hk.inv_cons
        obtain ⟨p2, _, rfl, a2, b2, hk⟩ := hk.inv_cons
        cases hk.inv_nil
        exact Sim.bind (base_sim a0 b0) fun _ => script_sim b1 fun _ => script_sim b2 fun _ => Sim.ok _
      · obtain ⟨p0, _, rfl, a0, b0, hk⟩ := hk.inv_cons
        obtain ⟨p1, _, rfl, a1, b1, hk⟩ := hk.inv_cons
        obtain ⟨p2, _, rfl, a2, b2, hk⟩ := hk.inv_cons
        obtain ⟨p3, _, rfl, a3, b3, hk⟩ := hk.inv_cons
        show Sim _ (throw (.invalidChildren name 3 _ c!"exactly")) (.error (.invalidChildren name 3 _ c!"exactly"))
        rw [hlen]; exact Sim.err _
    | mmultiscripts =>
      rcases kids with _ | ⟨k0, _ | ⟨k1, _ | ⟨k2, ks⟩⟩⟩
      · cases hk.inv_nil; exact Sim.err _
      · obtain ⟨p0, _, rfl, a0, b0, hk⟩ := hk.inv_cons
        cases hk.inv_nil; exact Sim.err _
      · obtain ⟨p0, _, rfl, a0, b0, hk⟩ := hk.inv_cons
        obtain ⟨p1, _, rfl, a1, b1, hk⟩ := hk.inv_cons
        cases hk.inv_nil; exact Sim.err _
      · have hpre := pre_sim hk
        have hpost := post_sim hk
        obtain ⟨p0, _, rfl, a0, b0, hk⟩ := hk.inv_cons
        obtain ⟨p1, _, rfl, a1, b1, hk⟩ := hk.inv_cons
        obtain ⟨p2, _, rfl, a2, b2, hk⟩ := hk.inv_cons
        exact Sim.bind b0 fun _ => Sim.bind hpre fun _ => Sim.bind hpost fun _ => Sim.ok _
    | mtext =>
      exact Sim.attrs_agree (f := fun a => pure (mtextConvert value a)) ha
        (fun a' h => by simp only [mtextConvert, h _ _ hv]) (Sim.ok _)
    | munderover =>
      rcases kids with _ | ⟨k0, _ | ⟨k1, _ | ⟨k2, _ | ⟨k3, ks⟩⟩⟩⟩
      · cases hk.inv_nil; exact Sim.err _
      · obtain ⟨p0, _, rfl, a0, b0, hk⟩ := hk.inv_cons
        cases hk.inv_nil; exact Sim.err _
      · obtain ⟨p0, _, rfl, a0, b0, hk⟩ := hk.inv_cons
        obtain ⟨p1, _, rfl, a1, b1, hk⟩ := hk.inv_cons
        cases hk.inv_nil; exact Sim.err _
      · obtain ⟨p0, _, rfl, a0, b0, hk⟩ := hk.inv_cons
        obtain ⟨p1, _, rfl, a1, b1, hk⟩ := hk.inv_cons
        obtain ⟨p2, _, rfl, a2, b2, hk⟩ := hk.inv_cons
        cases hk.inv_nil
        exact Sim.bind b0 fun _ => Sim.bind b1 fun _ => Sim.bind b2 fun _ => Sim.ok _
      · obtain ⟨p0, _, rfl, a0, b0, hk⟩ := hk.inv_cons
        obtain ⟨p1, _, rfl, a1, b1, hk⟩ := hk.inv_cons
        obtain ⟨p2, _, rfl, a2, b2, hk⟩ := hk.inv_cons
        obtain ⟨p3, _, rfl, a3, b3, hk⟩ := hk.inv_cons
        show Sim _ (throw (.invalidChildren name 3 _ c!"exactly")) (.error (.invalidChildren name 3 _ c!"exactly"))
        rw [hlen]; exact Sim.err _
    | mtr => exact Sim.bind hk.run fun _ => Sim.ok _
    | underOver =>
      rcases kids with _ | ⟨k0, _ | ⟨k1, _ | ⟨k2, ks⟩⟩⟩
      · cases hk.inv_nil; exact Sim.err _
      · obtain ⟨p0, _, rfl, a0, b0, hk⟩ := hk.inv_cons
        cases hk.inv_nil; exact Sim.err _
      · obtain ⟨p0, _, rfl, a0, b0, hk⟩ := hk.inv_cons
        obtain ⟨p1, _, rfl, a1, b1, hk⟩ := hk.inv_cons
        cases hk.inv_nil
        exact Sim.bind b0 fun _ => Sim.bind b1 fun _ => Sim.ok _
      · obtain ⟨p0, _, rfl, a0, b0, hk⟩ := hk.inv_cons
        obtain ⟨p1, _, rfl, a1, b1, hk⟩ := hk.inv_cons
        obtain ⟨p2, _, rfl, a2, b2, hk⟩ := hk.inv_cons
        show Sim _ (throw (.invalidChildren name 2 _ c!"exactly")) (.error (.invalidChildren name 2 _ c!"exactly"))
        rw [hlen]; exact Sim.err _
    | spacing => exact Sim.bind hk.run fun _ => Sim.ok _


theorem kidsOf_fst (cs : List Elem) : (kidsOf cs).map (·.1) = cs := by
  induction cs with
  | nil => simp [kidsOf]
  | cons c cs ih => simp [kidsOf, ih]

mutual
/-- Converting an element in the heap model computes `pconv` and keeps the invariant. -/
theorem convertElem_sim {S : Nat → Prop} {c0 : Nat → Attrs} (e : Elem) :
    ∀ (F : Nat → Prop) (b : Bool), WfT S b e → (b = true → ∀ r ∈ tableRefs e, F r) →
      Sim (HInv S F c0) (convertElem e) (pconv b (view c0 e)) := by
  obtain ⟨n, v, r, cs⟩ := e
  intro F b hw hF
  rw [WfT] at hw
  have key := construct_sim (S := S) (F := F) (c0 := c0) (b := b) (name := n) (value := v)
    (aref := r) (cs := cs) (kids := kidsOf cs) (pkids := pkids (b || n == c!"mtable") (views c0 cs))
    (by
      intro hn
      have h1 := hw.1 hn
      by_cases hc : b = true
      · rw [if_pos hc] at h1 ⊢
        exact ⟨h1, hF hc r (by simp [tableRefs, hn])⟩
      · rw [if_neg hc] at h1 ⊢
        exact h1)
    (by
      intro hm x hx
      have hn := (classify_mtable n).1 hm
      have h2 := hw.2
      rw [hn] at h2
      simp only [BEq.rfl, Bool.or_true] at h2
      exact tableRefsL_sub cs h2 x hx)
    (kidsOf_fst cs)
    (by
      intro F' hFF' hm
      refine kids_sim cs F' _ hw.2 ?_
      intro hb x hx
      by_cases hn : n = c!"mtable"
      · exact hm ((classify_mtable n).2 hn) x hx
      · have : b = true := by simpa [hn] using hb
        exact hFF' x (hF this x (by simp [tableRefs, hx])))
  rw [view, pconv]
  exact key
theorem kids_sim {S : Nat → Prop} {c0 : Nat → Attrs} (es : List Elem) :
    ∀ (F : Nat → Prop) (b : Bool), WfTs S b es → (b = true → ∀ r ∈ tableRefsL es, F r) →
      KidsRel c0 (HInv S F c0) (kidsOf es) (pkids b (views c0 es)) := by
  intro F b hw hF
  match es with
  | [] => simp only [kidsOf, views, pkids]; exact .nil
  | e :: es =>
    rw [WfTs] at hw
    simp only [kidsOf, views, pkids]
    refine .cons rfl ?_ (kids_sim es F b hw.2 fun hb x hx => hF hb x (by simp [tableRefsL, hx]))
    exact convertElem_sim e F b hw.1 fun hb x hx => hF hb x (by simp [tableRefsL, hx])
end

/-! ## Building elements -/

mutual
/-- All references of an element lie in `[lo, hi)`. -/
def RefsIn (lo hi : Nat) : Elem → Prop
  | .mk _ _ r cs => (lo ≤ r ∧ r < hi) ∧ RefsInL lo hi cs
def RefsInL (lo hi : Nat) : List Elem → Prop
  | [] => True
  | e :: es => RefsIn lo hi e ∧ RefsInL lo hi es
end

mutual
theorem RefsIn.mono {lo hi lo' hi' : Nat} (h1 : lo' ≤ lo) (h2 : hi ≤ hi') (e : Elem)
    (h : RefsIn lo hi e) : RefsIn lo' hi' e := by
  obtain ⟨n, v, r, cs⟩ := e
  rw [RefsIn] at h ⊢
  exact ⟨⟨by omega, by omega⟩, RefsInL.mono h1 h2 cs h.2⟩
theorem RefsInL.mono {lo hi lo' hi' : Nat} (h1 : lo' ≤ lo) (h2 : hi ≤ hi') (es : List Elem)
    (h : RefsInL lo hi es) : RefsInL lo' hi' es := by
  match es with
  | [] => simp [RefsInL]
  | e :: es =>
    rw [RefsInL] at h ⊢
    exact ⟨RefsIn.mono h1 h2 e h.1, RefsInL.mono h1 h2 es h.2⟩
end

mutual
theorem WfE.congr {S S' : Nat → Prop} {lo hi : Nat} (hS : ∀ r, lo ≤ r → r < hi → (S r ↔ S' r))
    (e : Elem) (b : Bool) (hr : RefsIn lo hi e) (h : WfE S b e) : WfE S' b e := by
  obtain ⟨n, v, r, cs⟩ := e
  rw [RefsIn] at hr
  rw [WfE] at h ⊢
  refine ⟨?_, WfEs.congr hS cs _ hr.2 h.2⟩
  have := hS r hr.1.1 hr.1.2
  have h1 := h.1
  split
  · rename_i hc; rw [if_pos hc] at h1; exact this.1 h1
  · rename_i hc; rw [if_neg hc] at h1; exact fun h' => h1 (this.2 h')
theorem WfEs.congr {S S' : Nat → Prop} {lo hi : Nat} (hS : ∀ r, lo ≤ r → r < hi → (S r ↔ S' r))
    (es : List Elem) (b : Bool) (hr : RefsInL lo hi es) (h : WfEs S b es) : WfEs S' b es := by
  match es with
  | [] => simp [WfEs]
  | e :: es =>
    rw [RefsInL] at hr
    rw [WfEs] at h ⊢
    exact ⟨WfE.congr hS e b hr.1 h.1, WfEs.congr hS es b hr.2 h.2⟩
end

mutual
theorem view_congr {c c' : Nat → Attrs} {lo hi : Nat} (hc : ∀ r, lo ≤ r → r < hi → c r = c' r)
    (e : Elem) (hr : RefsIn lo hi e) : view c e = view c' e := by
  obtain ⟨n, v, r, cs⟩ := e
  rw [RefsIn] at hr
  rw [view, view, hc r hr.1.1 hr.1.2, views_congr hc cs hr.2]
theorem views_congr {c c' : Nat → Attrs} {lo hi : Nat} (hc : ∀ r, lo ≤ r → r < hi → c r = c' r)
    (es : List Elem) (hr : RefsInL lo hi es) : views c es = views c' es := by
  match es with
  | [] => simp [views]
  | e :: es =>
    rw [RefsInL] at hr
    rw [views, views, view_congr hc e hr.1, views_congr hc es hr.2]
end

/-- What building does to the heap. -/
structure Built (h h' : Heap) : Prop where
  next_le : h.next ≤ h'.next
  old : ∀ r, r < h.next → h'.cells r = h.cells r

mutual
theorem buildElem_spec (n : Node) (h : Heap) (b : Bool) :
    Built h (buildElem n h).2 ∧
    match (buildElem n h).1 with
    | none => toPElem n = none
    | some e => toPElem n = some (view (buildElem n h).2.cells e) ∧
        RefsIn h.next (buildElem n h).2.next e ∧ ∃ S, WfE S b e := by
  match n with
  | .text _ => exact ⟨⟨Nat.le_refl _, fun _ _ => rfl⟩, by simp [buildElem, toPElem, pure, StateT.pure]⟩
  | .cdata _ => exact ⟨⟨Nat.le_refl _, fun _ _ => rfl⟩, by simp [buildElem, toPElem, pure, StateT.pure]⟩
  | .comment _ => exact ⟨⟨Nat.le_refl _, fun _ _ => rfl⟩, by simp [buildElem, toPElem, pure, StateT.pure]⟩
  | .pi _ _ => exact ⟨⟨Nat.le_refl _, fun _ _ => rfl⟩, by simp [buildElem, toPElem, pure, StateT.pure]⟩
  | .elem tag attrs cs =>
    have ih := buildElems_spec cs
      ⟨h.next + 1, fun r => if r = h.next then convertAttributes attrs else h.cells r⟩
      (b || tag == c!"mtable")
    have heq : buildElem (.elem tag attrs cs) h =
        (some (.mk tag (strip (elementValue cs)) h.next (buildElems cs
      ⟨h.next + 1, fun r => if r = h.next then convertAttributes attrs else h.cells r⟩).1),
      (buildElems cs
      ⟨h.next + 1, fun r => if r = h.next then convertAttributes attrs else h.cells r⟩).2) := by
      rw [buildElem]; rfl
    rw [heq]
    generalize buildElems cs
      ⟨h.next + 1, fun r => if r = h.next then convertAttributes attrs else h.cells r⟩ = q at ih
    obtain ⟨hb, hv, hr, S, hw⟩ := ih
    have hn := hb.next_le
    simp only at hn hr
    refine ⟨⟨by simp only; omega, ?_⟩, ?_, ?_, ?_⟩
    · intro r hr'
      have := hb.old r (by simp only; omega)
      simp only at this
      rw [this, if_neg (by omega)]
    · have := hb.old h.next (by simp only; omega)
      simp only [if_true] at this
      simp only [toPElem, view, this, hv]
    · simp only [RefsIn]
      exact ⟨⟨Nat.le_refl _, by omega⟩, RefsInL.mono (by omega) (Nat.le_refl _) _ hr⟩
    · refine ⟨fun r => if r = h.next then tag = c!"mtable" ∧ b = true else S r, ?_⟩
      simp only [WfE, if_true]
      refine ⟨by split <;> assumption, ?_⟩
      refine WfEs.congr (lo := h.next + 1) (hi := q.2.next) ?_ _ _ hr hw
      intro r h1 h2
      rw [if_neg (by omega)]
theorem buildElems_spec (ns : List Node) (h : Heap) (b : Bool) :
    Built h (buildElems ns h).2 ∧
    toPElems ns = views (buildElems ns h).2.cells (buildElems ns h).1 ∧
    RefsInL h.next (buildElems ns h).2.next (buildElems ns h).1 ∧
    ∃ S, WfEs S b (buildElems ns h).1 := by
  match ns with
  | [] =>
    refine ⟨⟨Nat.le_refl _, fun _ _ => rfl⟩, ?_, ?_, fun _ => True, ?_⟩ <;>
      simp [buildElems, toPElems, views, RefsInL, WfEs, pure, StateT.pure]
  | n :: ns =>
    have ih1 := buildElem_spec n h b
    have ih2 := buildElems_spec ns (buildElem n h).2 b
    have heq : buildElems (n :: ns) h = ((match (buildElem n h).1 with
        | some e => e :: (buildElems ns (buildElem n h).2).1
        | none => (buildElems ns (buildElem n h).2).1), (buildElems ns (buildElem n h).2).2) := by
      rw [buildElems]; rfl
    rw [heq]
    generalize buildElem n h = q1 at ih1 ih2
    generalize buildElems ns q1.2 = q2 at ih2
    obtain ⟨e?, h1⟩ := q1
    obtain ⟨es, h2⟩ := q2
    obtain ⟨hb1, ih1⟩ := ih1
    obtain ⟨hb2, hv2, hr2, S2, hw2⟩ := ih2
    simp only at *
    have hn1 := hb1.next_le
    have hn2 := hb2.next_le
    refine ⟨⟨by omega, fun r hr => by rw [hb2.old r (by omega), hb1.old r hr]⟩, ?_⟩
    cases e? with
    | none =>
      simp only at ih1 ⊢
      refine ⟨by rw [toPElems, ih1]; exact hv2, RefsInL.mono hn1 (Nat.le_refl _) _ hr2, S2, hw2⟩
    | some e =>
      simp only at ih1 ⊢
      obtain ⟨hv1, hr1, S1, hw1⟩ := ih1
      refine ⟨?_, ?_, fun r => if r < h1.next then S1 r else S2 r, ?_⟩
      · rw [toPElems, hv1, views, hv2]
        simp only [List.cons.injEq, and_true]
        exact view_congr (lo := h.next) (hi := h1.next) (fun r _ h' => (hb2.old r h').symm) e hr1
      · rw [RefsInL]
        exact ⟨RefsIn.mono (Nat.le_refl _) hn2 _ hr1, RefsInL.mono hn1 (Nat.le_refl _) _ hr2⟩
      · rw [WfEs]
        refine ⟨WfE.congr (lo := h.next) (hi := h1.next) ?_ e b hr1 hw1,
          WfEs.congr (lo := h1.next) (hi := h2.next) ?_ es b hr2 hw2⟩
        · intro r _ h'; rw [if_pos h']
        · intro r h' _; rw [if_neg (by omega)]
end

/-! ## The API on accepted documents -/

theorem toConv_math (v : Str) (r : Nat) (cs : List Elem) :
    toConv (.mk c!"math" v r cs) = pure (mathConvert (kidsOf cs)) := by
  rw [toConv]
  have : classify c!"math" = .math := by decide
  rw [this]; rfl

theorem convertElem_math (v : Str) (r : Nat) (cs : List Elem) :
    convertElem (.mk c!"math" v r cs) = mathConvert (kidsOf cs) := by
  unfold convertElem
  rw [toConv_math]; rfl

theorem constructAll_math (es : List Elem) (h : ∀ e ∈ es, e.name = c!"math") :
    constructAll es = pure (es.map fun e => mathConvert (kidsOf e.children)) := by
  induction es with
  | nil => rfl
  | cons e es ih =>
    obtain ⟨n, v, r, cs⟩ := e
    have hn : n = c!"math" := h _ List.mem_cons_self
    subst hn
    rw [constructAll, toConv_math, ih fun e he => h e (List.mem_cons_of_mem _ he)]
    rfl

theorem convertAll_sim {S : Nat → Prop} {c0 : Nat → Attrs} (es : List Elem)
    (h : ∀ e ∈ es, e.name = c!"math") (hw : WfTs S false es) :
    Sim (HInv S (fun _ => False) c0)
      (convertAll (es.map fun e => mathConvert (kidsOf e.children)))
      (pconvAll (views c0 es)) := by
  induction es with
  | nil => exact Sim.ok _
  | cons e es ih =>
    rw [WfTs] at hw
    have h1 := convertElem_sim (S := S) (c0 := c0) e (fun _ => False) false hw.1 (by simp)
    obtain ⟨n, v, r, cs⟩ := e
    have hn : n = c!"math" := h _ List.mem_cons_self
    subst hn
    rw [convertElem_math] at h1
    simp only [List.map_cons, convertAll, views, pconvAll]
    exact Sim.bind h1 fun a => Sim.bind
      (ih (fun e he => h e (List.mem_cons_of_mem _ he)) hw.2) fun b => Sim.ok _

mutual
theorem mathElementsOf_name (n : Node) :
    ∀ m ∈ mathElementsOf n, ∃ a cs, m = .elem c!"math" a cs := by
  match n with
  | .text _ => simp [mathElementsOf]
  | .cdata _ => simp [mathElementsOf]
  | .comment _ => simp [mathElementsOf]
  | .pi _ _ => simp [mathElementsOf]
  | .elem tag attrs cs =>
    intro m hm
    rw [mathElementsOf, List.mem_append] at hm
    rcases hm with hm | hm
    · split at hm
      · rename_i ht
        simp only [List.mem_singleton] at hm
        exact ⟨attrs, cs, by rw [hm, ht]⟩
      · simp at hm
    · exact mathElements_name cs m hm
theorem mathElements_name (ns : List Node) :
    ∀ m ∈ mathElements ns, ∃ a cs, m = .elem c!"math" a cs := by
  match ns with
  | [] => simp [mathElements]
  | n :: ns =>
    intro m hm
    rw [mathElements, List.mem_append] at hm
    rcases hm with hm | hm
    · exact mathElementsOf_name n m hm
    · exact mathElements_name ns m hm
end

theorem buildElems_names (ns : List Node) (h : ∀ m ∈ ns, ∃ a cs, m = .elem c!"math" a cs)
    (hp : Heap) : ∀ e ∈ (buildElems ns hp).1, e.name = c!"math" := by
  induction ns generalizing hp with
  | nil => simp [buildElems, pure, StateT.pure]
  | cons n ns ih =>
    obtain ⟨a, cs, rfl⟩ := h n List.mem_cons_self
    intro e he
    have heq : ∃ v r cs' h', (buildElems (.elem c!"math" a cs :: ns) hp).1 =
        .mk c!"math" v r cs' :: (buildElems ns h').1 := by
      rw [buildElems, buildElem]
      exact ⟨_, _, _, _, rfl⟩
    obtain ⟨v, r, cs', h', heq⟩ := heq
    rw [heq, List.mem_cons] at he
    rcases he with he | he
    · subst he; rfl
    · exact ih (fun m hm => h m (List.mem_cons_of_mem _ hm)) _ e he

/-- Rendering parsed `math` elements in the heap model is the pure function. -/
theorem renderNodes_eq (d : Doc) (h0 : Heap) :
    (renderNodes (mathElements d) h0).1 = renderDoc d := by
  have hbs := buildElems_spec (mathElements d) h0 false
  have hnames := buildElems_names (mathElements d) (mathElements_name d) h0
  have heq : renderNodes (mathElements d) h0 =
      renderAll (buildElems (mathElements d) h0).1
        (buildElems (mathElements d) h0).2 := by
    unfold renderNodes
    rfl
  rw [heq]
  generalize buildElems (mathElements d) h0 = q at hbs hnames
  obtain ⟨es, h1⟩ := q
  obtain ⟨_, hv, _, S, hw⟩ := hbs
  simp only at hv hw hnames
  have hs : Sim (HInv S (fun _ => False) h1.cells) (renderAll es) (renderDoc d) := by
    unfold renderAll renderDoc
    rw [constructAll_math es hnames, hv]
    rw [pure_bind]
    exact Sim.bind (convertAll_sim es hnames (WfEs.toT es _ hw)) fun _ => Sim.ok _
  obtain ⟨h2, e2, _⟩ := hs h1 ⟨fun _ _ => rfl, fun _ _ _ _ => rfl, fun _ h => h.elim⟩
  exact congrArg Prod.fst e2

/-- The API on an input whose preprocessed text the parser accepts. -/
theorem convert_of_domElements (env : Env) (xml : Str) (d : Doc)
    (h : (Adapter.fresh.domElements env xml).1 = .ok (mathElements d)) :
    convert env xml = renderDoc d := by
  unfold convert
  rw [h]
  exact renderNodes_eq d _
end Verif
