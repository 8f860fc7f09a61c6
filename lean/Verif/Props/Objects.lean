import Verif.Source.Writes
import Verif.Props.Live

/-!
# What happens to objects that are already there (C91)

A process in which any functions of the package are called and instances of its classes are made, at any time and
in any thread, with arguments that may be shared in any way: the same element may be rendered by several
threads, the same adapter may read several texts.  Calls may be interrupted.  Other code may make
objects and change those.

`Verif.Source.Gentle` says what may happen to an object that was there in the beginning (`Alt`).  The only
assumption (`GoodS`) is that nobody has stored a bound method `__init__`, `append` or
`_add_flag_recursive_if_name` in an object or hands one over.
-/

namespace Verif.Src.Writes

/-- The store, and what each call still has to do. -/
structure Process where
  store : Store
  calls : List (Steps Val)

/-- A function or method of the package, other than the two kinds of methods that change an object that is handed
to them. -/
def InPackage (f : Func) : Prop :=
  (∃ c k m d, look c classes = some k ∧ look m k.methods = some (d, f) ∧ m ≠ .__init__ ∧
    m ≠ ._add_flag_recursive_if_name) ∨ ∃ x, look x functions = some f

/-- What may happen next; `N` is the number of objects in the beginning. -/
inductive Happens (env : Env) (n N : Nat) : Process → Process → Prop
  /-- a function is called -/
  | start {W : Process} {f : Func} {args : List Val} {kw : List (Ident × Val)} (hf : InPackage f)
      (ha : ∀ v ∈ args, Good v) (hk : ∀ p ∈ kw, Good p.2) :
      Happens env n N W ⟨W.store, W.calls ++ [callS env n f args kw]⟩
  /-- an instance of a class is made -/
  | make {W : Process} {c : Ident} {args : List Val} {kw : List (Ident × Val)}
      (ha : ∀ v ∈ args, Good v) (hk : ∀ p ∈ kw, Good p.2) :
      Happens env n N W ⟨W.store, W.calls ++ [applyS ⟨env, callS env n, n⟩ (.cls c) args kw]⟩
  /-- a call does its next operation -/
  | step {W : Process} {i : Nat} {g : Store → Store} {k : Store → Steps Val} (h : W.calls[i]? = some (.act g k)) :
      Happens env n N W ⟨g W.store, W.calls.set i (k W.store)⟩
  /-- a call is interrupted -/
  | interrupt {W : Process} {i : Nat} {v : Val} (hv : Good v) : Happens env n N W ⟨W.store, W.calls.set i (.exc v)⟩
  /-- other code makes objects, or changes objects that were not there in the beginning -/
  | other {W : Process} {S : Store} (hl : W.store.length ≤ S.length) (hs : ∀ a, a < N → S[a]? = W.store[a]?)
      (hg : GoodS S) : Happens env n N W ⟨S, W.calls⟩

/-- What may have happened. -/
inductive Reach (env : Env) (n : Nat) (S : Store) : Process → Prop
  | nil : Reach env n S ⟨S, []⟩
  | snoc {W W' : Process} : Reach env n S W → Happens env n S.length W W' → Reach env n S W'

/-! ## The invariant -/

theorem gentle_start {env : Env} {n N : Nat} {f : Func} {args : List Val} {kw : List (Ident × Val)} (hf : InPackage f)
    (ha : ∀ v ∈ args, Good v) (hk : ∀ p ∈ kw, Good p.2) : Gentle N Good (callS env n f args kw) := by
  refine gentle_call env N n f args kw (ready_func ?_ ha hk)
  rcases hf with ⟨c, k, m, d, h1, h2, h3, h4⟩ | ⟨x, h⟩
  · have h := method_ok h1 h2
    refine okMethod_func h ?_
    intro hm
    simp only [writers, List.mem_cons, List.not_mem_nil, or_false] at hm
    rcases hm with hm | hm | hm
    · exact h3 hm
    · exact h4 hm
    · subst hm
      rw [okMethod_append] at h
      cases h
  · exact func_ok h

theorem gentle_make {env : Env} {n N : Nat} {c : Ident} {args : List Val} {kw : List (Ident × Val)}
    (ha : ∀ v ∈ args, Good v) (hk : ∀ p ∈ kw, Good p.2) :
    Gentle N Good (applyS ⟨env, callS env n, n⟩ (.cls c) args kw) :=
  gentle_apply (gentle_call env N n) (by simp [Good]) ha hk

theorem invariant {env : Env} {n : Nat} {S : Store} (hS : GoodS S) {W : Process} (h : Reach env n S W) :
    Turned S.length S W.store ∧ GoodS W.store ∧ ∀ p ∈ W.calls, Gentle S.length Good p := by
  induction h with
  | nil => exact ⟨.refl _ _, hS, fun _ h => by cases h⟩
  | @snoc W W' _ hh ih =>
    obtain ⟨h1, h2, h3⟩ := ih
    cases hh with
    | start hf ha hk =>
      refine ⟨h1, h2, fun p hp => ?_⟩
      rcases List.mem_append.1 hp with hp | hp
      · exact h3 p hp
      · rw [List.mem_singleton.1 hp]
        exact gentle_start hf ha hk
    | make ha hk =>
      refine ⟨h1, h2, fun p hp => ?_⟩
      rcases List.mem_append.1 hp with hp | hp
      · exact h3 p hp
      · rw [List.mem_singleton.1 hp]
        exact gentle_make ha hk
    | step hi =>
      obtain ⟨t, g, k⟩ := h3 _ (List.mem_of_getElem? hi) W.store h1.grow h2
      refine ⟨h1.trans t, g, fun p hp => ?_⟩
      rcases List.mem_or_eq_of_mem_set hp with hp | hp
      · exact h3 p hp
      · rw [hp]
        exact k
    | interrupt hv =>
      refine ⟨h1, h2, fun p hp => ?_⟩
      rcases List.mem_or_eq_of_mem_set hp with hp | hp
      · exact h3 p hp
      · rw [hp]
        exact hv
    | other hl hs hg =>
      refine ⟨⟨Nat.le_trans h1.grow hl, fun ha ho => ?_⟩, hg, h3⟩
      obtain ⟨o', h4, h5⟩ := h1.alt ha ho
      exact ⟨o', by rw [hs _ ha]; exact h4, h5⟩

/-! ## The property -/

section
variable {env : Env} {n : Nat} {S : Store} (hS : GoodS S) {W : Process} (h : Reach env n S W)
include hS h

/-- **C91** At any moment every object that was there in the beginning is still there and has been changed in the
allowed way only. -/
theorem C91_changes {a : Nat} {o : Obj} (ha : S[a]? = some o) : ∃ o', W.store[a]? = some o' ∧ Alt o o' :=
  (invariant hS h).1.alt (List.getElem?_eq_some_iff.1 ha).1 ha

/-- **C91** Lists are not changed. -/
theorem C91_lists {a : Nat} {vs : List Val} (ha : S[a]? = some (.list vs)) : W.store[a]? = some (.list vs) := by
  obtain ⟨o', h1, h2⟩ := C91_changes hS h ha
  cases h2
  exact h1

/-- **C91** Dictionaries keep all entries but the mark, which is set or left as it was. -/
theorem C91_dictionaries {a : Nat} {d : Dict Val} (ha : S[a]? = some (.dict d)) : ∃ d', W.store[a]? = some (.dict d') ∧
    (∀ k, k ≠ c!"innerTable" → Dict.get? d' k = Dict.get? d k) ∧
    (Dict.get? d' c!"innerTable" = Dict.get? d c!"innerTable" ∨
      Dict.get? d' c!"innerTable" = some (.str c!"innerTable")) := by
  obtain ⟨o', h1, h2⟩ := C91_changes hS h ha
  cases h2 with
  | dict => exact ⟨d, h1, fun _ _ => rfl, .inl rfl⟩
  | marked =>
    refine ⟨_, h1, fun k hk => ?_, .inr ?_⟩
    · rw [Dict.get?_set, if_neg (fun e => hk e)]
    · rw [Dict.get?_set, if_pos rfl]

/-- **C91** Instances keep their class and all attributes but `_xml` and `value`. -/
theorem C91_instances {a : Nat} {c : Ident} {fs : List (Ident × Val)} (ha : S[a]? = some (.inst c fs)) :
    ∃ fs', W.store[a]? = some (.inst c fs') ∧ ∀ x, x ≠ ._xml → x ≠ .value → look x fs' = look x fs := by
  obtain ⟨o', h1, h2⟩ := C91_changes hS h ha
  cases h2 with
  | inst _ h3 _ => exact ⟨_, h1, fun x hx hy => h3 x (by simp [loose, hx, hy])⟩
end

/-! ## Elements -/

/-- An element tree. -/
inductive Tree where
  | node (name value : Str) (attributes : Dict Str) (children : List Tree)

mutual
/-- The object stands for the tree, where the mark does not count. -/
inductive Stands (S : Store) : Val → Tree → Prop
  | node {a b d : Nat} {fs : List (Ident × Val)} {vs : List Val} {D : Dict Val} {name value : Str}
      {attributes : Dict Str} {children : List Tree} : S[a]? = some (.inst .GenericMathMLElement fs) →
      look ._name fs = some (.str name) → look ._value fs = some (.str value) → look ._children fs = some (.obj b) →
      look ._attributes fs = some (.obj d) → S[b]? = some (.list vs) → StandAll S vs children →
      S[d]? = some (.dict D) → (∀ k, k ≠ c!"innerTable" → Dict.get? D k = (Dict.get? attributes k).map .str) →
      Stands S (.obj a) (.node name value attributes children)
/-- So do all of them. -/
inductive StandAll (S : Store) : List Val → List Tree → Prop
  | nil : StandAll S [] []
  | cons {v : Val} {t : Tree} {vs : List Val} {ts : List Tree} : Stands S v t → StandAll S vs ts →
      StandAll S (v :: vs) (t :: ts)
end

/-- Reading an attribute of an element. -/
theorem call_getter (env : Env) (m : Nat) {S : Store} {a : Nat} {fs : List (Ident × Val)} {f : Func} {x : Ident}
    (hf : (f, x) ∈ [(GenericMathMLElement_name, Ident._name), (GenericMathMLElement_value, ._value),
      (GenericMathMLElement_children, ._children), (GenericMathMLElement_attributes, ._attributes)])
    (ha : S[a]? = some (.inst .GenericMathMLElement fs)) :
    call env (m + 1) f [.obj a] [] S = Res.of (look x fs) S := by
  have key : ∀ x, findMethod .GenericMathMLElement x = none →
      call env (m + 1) ⟨[(.self, none)], [.ret (.attr (.name .self) x)]⟩ [.obj a] [] S = Res.of (look x fs) S := by
    intro x hx
    have g : getAttr ⟨env, call env m, m⟩ (.obj a) x S = Res.of (look x fs) S := by
      simp only [getAttr, ha, hx]
    rw [call_eq]
    change (((getAttr ⟨env, call env m, m⟩ (.obj a) x S).out _ fun v h => Out.ret v h).andThen _).result = _
    rw [g]
    cases look x fs <;> rfl
  simp only [List.mem_cons, List.not_mem_nil, or_false, Prod.mk.injEq] at hf
  rcases hf with ⟨rfl, rfl⟩ | ⟨rfl, rfl⟩ | ⟨rfl, rfl⟩ | ⟨rfl, rfl⟩ <;> exact key _ (by decide +kernel)

section
variable {env : Env} {n : Nat} {S : Store} (hS : GoodS S) {W : Process} (h : Reach env n S W)
include hS h

/-- **C91** An element stands for the same tree at any moment. -/
theorem C91_trees {v : Val} {t : Tree} (hv : Stands S v t) : Stands W.store v t := by
  refine Stands.rec (motive_1 := fun v t _ => Stands W.store v t) (motive_2 := fun vs ts _ => StandAll W.store vs ts)
    ?_ .nil (fun _ _ h1 h2 => .cons h1 h2) hv
  intro a b d fs vs D name value attributes children h1 h2 h3 h4 h5 h6 _ h8 h9 ih
  obtain ⟨fs', g1, g2⟩ := C91_instances hS h h1
  obtain ⟨D', g3, g4, _⟩ := C91_dictionaries hS h h8
  exact .node g1 (by rw [g2 _ (by decide) (by decide)]; exact h2) (by rw [g2 _ (by decide) (by decide)]; exact h3)
    (by rw [g2 _ (by decide) (by decide)]; exact h4) (by rw [g2 _ (by decide) (by decide)]; exact h5)
    (C91_lists hS h h6) ih g3 fun k hk => by rw [g4 k hk]; exact h9 k hk

/-- **C91** The attributes of an element, read at any moment, are those of the beginning. -/
theorem C91_elements {a : Nat} {fs : List (Ident × Val)} (ha : S[a]? = some (.inst .GenericMathMLElement fs))
    {f : Func} (hf : f ∈ [GenericMathMLElement_name, GenericMathMLElement_value, GenericMathMLElement_children,
      GenericMathMLElement_attributes]) (m : Nat) {v : Val} (hv : call env m f [.obj a] [] S = .ok v S) :
    call env m f [.obj a] [] W.store = .ok v W.store := by
  obtain ⟨fs', g1, g2⟩ := C91_instances hS h ha
  have hx : ∃ x, x ≠ ._xml ∧ x ≠ .value ∧ (f, x) ∈ [(GenericMathMLElement_name, Ident._name),
      (GenericMathMLElement_value, ._value), (GenericMathMLElement_children, ._children),
      (GenericMathMLElement_attributes, ._attributes)] := by
    simp only [List.mem_cons, List.not_mem_nil, or_false] at hf
    rcases hf with rfl | rfl | rfl | rfl
    · exact ⟨._name, by decide, by decide, by simp⟩
    · exact ⟨._value, by decide, by decide, by simp⟩
    · exact ⟨._children, by decide, by decide, by simp⟩
    · exact ⟨._attributes, by decide, by decide, by simp⟩
  obtain ⟨x, h1, h2, h3⟩ := hx
  cases m with
  | zero => cases hv
  | succ m =>
    rw [call_getter env m h3 ha] at hv
    rw [call_getter env m h3 g1, g2 x h1 h2]
    cases hl : look x fs with
    | none => rw [hl] at hv; cases hv
    | some w => rw [hl] at hv; cases hv; rfl
end

/-- **C91** The same for a single call, whether it returns or raises. -/
theorem C91_call {env : Env} {n : Nat} {S S' : Store} {f : Func} {args : List Val} {kw : List (Ident × Val)} {v : Val}
    (hS : GoodS S) (hf : InPackage f) (ha : ∀ v ∈ args, Good v) (hk : ∀ p ∈ kw, Good p.2)
    (hr : call env n f args kw S = .ok v S' ∨ call env n f args kw S = .exc v S') {a : Nat} {o : Obj}
    (ho : S[a]? = some o) : ∃ o', S'[a]? = some o' ∧ Alt o o' := by
  have key : ∀ (p : Steps Val) (T : Store), S.length ≤ T.length → GoodS T → Gentle S.length Good p →
      (p.run T = .ok v S' ∨ p.run T = .exc v S') → Turned S.length T S' := by
    intro p
    induction p with
    | ret a => intro T _ _ _ h; rcases h with h | h <;> cases h; exact .refl _ _
    | exc a => intro T _ _ _ h; rcases h with h | h <;> cases h; exact .refl _ _
    | stuck => intro T _ _ _ h; rcases h with h | h <;> cases h
    | act g k ih =>
      intro T hl hT hp h
      obtain ⟨t, h2, h3⟩ := hp T hl hT
      exact t.trans (ih T (g T) (Nat.le_trans hl t.grow) h2 h3 h)
  rw [← run_callS] at hr
  exact (key _ S (Nat.le_refl _) hS (gentle_start hf ha hk) hr).alt (List.getElem?_eq_some_iff.1 ho).1 ho

/-! ## Examples -/

/-- Let the last call do all its operations. -/
theorem Reach.run {env : Env} {n : Nat} {S : Store} {cs : List (Steps Val)} {v : Val} {T' : Store} :
    ∀ {p : Steps Val} {T : Store}, Reach env n S ⟨T, cs ++ [p]⟩ → p.run T = .ok v T' →
    Reach env n S ⟨T', cs ++ [.ret v]⟩
  | .ret _, _, h, hr => by cases hr; exact h
  | .exc _, _, _, hr => by cases hr
  | .stuck, _, _, hr => by cases hr
  | .act g k, T, h, hr => by
    have h' := h.snoc (.step (i := cs.length) (g := g) (k := k) (by simp))
    simp only [List.set_append_right _ _ (Nat.le_refl cs.length), Nat.sub_self, List.set_cons_zero] at h'
    exact Reach.run h' hr

/-- A table in a table. -/
def tables : Store :=
  [.dict [(c!"align", .str c!"left")], .list [],
   .inst .GenericMathMLElement [(._name, .str c!"mtable"), (._value, .str []), (._children, .obj 1), (._attributes, .obj 0)],
   .dict [], .list [.obj 2],
   .inst .GenericMathMLElement [(._name, .str c!"mtable"), (._value, .str []), (._children, .obj 4), (._attributes, .obj 3)]]

theorem tables_good : GoodS tables := by
  intro o ho
  simp only [tables, List.mem_cons, List.not_mem_nil, or_false] at ho
  rcases ho with rfl | rfl | rfl | rfl | rfl | rfl <;> intro v hv <;>
    simp only [List.mem_cons, List.not_mem_nil, or_false] at hv
  · subst hv; trivial
  · rcases hv with rfl | rfl | rfl | rfl <;> trivial
  · subst hv; trivial
  · rcases hv with rfl | rfl | rfl | rfl <;> trivial

/-- It stands for a tree. -/
example : Stands tables (.obj 5) (.node c!"mtable" [] [] [.node c!"mtable" [] [(c!"align", c!"left")] []]) := by
  refine .node (a := 5) (b := 4) (d := 3) rfl rfl rfl rfl rfl rfl (.cons ?_ .nil) rfl (fun _ _ => rfl)
  refine .node (a := 2) (b := 1) (d := 0) rfl rfl rfl rfl rfl rfl .nil rfl (fun k _ => ?_)
  simp only [Dict.get?]
  split <;> rfl

/-- The call has returned, and the inner table has these attributes. -/
def ended (as : List (Str × Str)) : Res Val → Bool
  | .ok _ T => match (T[0]? : Option Obj) with
    | some (Obj.dict d) => d.map (fun p => match p with | (k, Val.str s) => (k, s) | (k, _) => (k, [])) == as
    | _ => false
  | _ => false

/-- While one thread is about to render the outer table a second one does so.  The inner table has got the mark
and has kept its attribute. -/
example : ∃ W, Reach squareEnv 20 tables W ∧ W.calls.length = 2 ∧
    ended [(c!"align", c!"left"), (c!"innerTable", c!"innerTable")] (.ok .none W.store) = true := by
  have h1 : Reach squareEnv 20 tables ⟨tables, _⟩ := .snoc .nil (.make (c := .MTable) (args := [.obj 5, .none]) (kw := [])
    (by simp [Good]) (by simp))
  have h2 : Reach squareEnv 20 tables ⟨tables, _⟩ := .snoc h1 (.make (c := .MTable) (args := [.obj 5, .none]) (kw := [])
    (by simp [Good]) (by simp))
  have h3 : ended [(c!"align", c!"left"), (c!"innerTable", c!"innerTable")]
      ((applyS ⟨squareEnv, callS squareEnv 20, 20⟩ (.cls .MTable) [.obj 5, .none] []).run tables) = true := by
    decide +kernel
  cases h4 : (applyS ⟨squareEnv, callS squareEnv 20, 20⟩ (.cls .MTable) [.obj 5, .none] []).run tables with
  | ok v T => exact ⟨_, h2.run h4, rfl, by rw [h4] at h3; exact h3⟩
  | exc v T => rw [h4] at h3; cases h3
  | stuck => rw [h4] at h3; cases h3

/-- A function that is called. -/
example : InPackage MTable_convert :=
  .inl ⟨.MTable, _, .convert, .plain, rfl, rfl, by decide, by decide⟩

end Verif.Src.Writes
