import Verif.Props.Source
import Verif.Props.Made

/-!
# The source text, used piece by piece (C84)

A program that has `GenericMathMLElement` objects, made by itself or by the reader, gives them to
`MathMLElementToLatexConverterAdapter` and calls `convert` on the converters, as often and in
whatever order it likes.
-/

namespace Verif.Src
open Spec

/-- `def create(adapter, child): return adapter.to_latex_converter(child)` -/
def createCode : Func :=
  ⟨[(.adapter, none), (.child, none)],
   [.ret (.call (.attr (.name .adapter) .to_latex_converter) [.name .child] [] [])]⟩

/-- `def render(converter): return converter.convert()` -/
def renderCode : Func :=
  ⟨[(.converter, none)], [.ret (.call (.attr (.name .converter) .convert) [] [] [])]⟩

/-- The call ends with `r`: with enough fuel, and then with any larger amount. -/
def Gives (env : Env) (f : Func) (args : List Val) (S : Store) (r : Res Val) : Prop :=
  ∃ k, ∀ n, k ≤ n → call env n f args [] S = r

theorem Gives.unique {env : Env} {f : Func} {args : List Val} {S : Store} {r r' : Res Val}
    (h : Gives env f args S r) (h' : Gives env f args S r') : r = r' := by
  obtain ⟨k, hk⟩ := h
  obtain ⟨k', hk'⟩ := h'
  rw [← hk (k + k') (by omega), hk' (k + k') (by omega)]

mutual
/-- At the address stands an element with its name, text, children and attributes: an object of
the class `GenericMathMLElement`, with a list of its children and a dictionary.  In the `Elem` the
dictionary is named by its address, and `h` says what is in it. -/
inductive Stands (S : Store) (h : Heap) : Elem → Nat → Prop
  | mk {name value d cs a la as} : S[a]? = some (.inst .GenericMathMLElement [(._name, .str name),
        (._value, .str value), (._children, .obj la), (._attributes, .obj d)]) →
      S[la]? = some (.list (as.map .obj)) →
      S[d]? = some (.dict ((h.cells d).map fun p => (p.1, .str p.2))) → Stand S h cs as →
      Stands S h (.mk name value d cs) a
/-- The same for the elements of a list. -/
inductive Stand (S : Store) (h : Heap) : List Elem → List Nat → Prop
  | nil : Stand S h [] []
  | cons {x xs a as} : Stands S h x a → Stand S h xs as → Stand S h (x :: xs) (a :: as)
end

/-- What other code does meanwhile: it makes objects, and it changes dictionaries, but none in which
attributes of the elements are (`mine`). -/
structure Elsewhere (mine : Nat → Prop) (S S' : Store) : Prop where
  length : S.length ≤ S'.length
  rest : ∀ (a : Nat) (o : Obj), S[a]? = some o → isDict o = false → S'[a]? = some o
  mine : ∀ d : Nat, mine d → S'[d]? = S[d]?

/-- The dictionaries in which `h` describes what the store has. -/
def Described (S : Store) (h : Heap) (d : Nat) : Prop :=
  S[d]? = some (.dict ((h.cells d).map fun p => (p.1, .str p.2)))

/-- What may have happened to a tree of elements that stands in the store `S0`: converters have been
created for elements of the tree, by any adapter; `convert` has been called on some of these
converters, any number of times in any order, with or without success; and other code has run.  The
state consists of the converters in existence, each with its element, and the store. -/
inductive Uses (env : Env) (root : Elem) (S0 : Store) (h0 : Heap) : List (Elem × Nat) → Store → Prop
  | start : Uses env root S0 h0 [] S0
  | create {ks S x b ad c S'} : Uses env root S0 h0 ks S → Within x root → Stands S0 h0 x b →
      S[ad]? = some (.inst .MathMLElementToLatexConverterAdapter []) →
      Gives env createCode [.obj ad, .obj b] S (.ok (.obj c) S') →
      Uses env root S0 h0 ((x, c) :: ks) S'
  | convert {ks S x c v S'} : Uses env root S0 h0 ks S → (x, c) ∈ ks →
      Gives env renderCode [.obj c] S (.ok v S') → Uses env root S0 h0 ks S'
  | failed {ks S x c v S'} : Uses env root S0 h0 ks S → (x, c) ∈ ks →
      Gives env renderCode [.obj c] S (.exc v S') → Uses env root S0 h0 ks S'
  | other {ks S S'} : Uses env root S0 h0 ks S → Elsewhere (Described S0 h0) S S' → Uses env root S0 h0 ks S'

/-! ## The invariant -/

/-- The object is a converter that acts as in the model, now and later. -/
def Acts (env : Env) (N : Nat → Prop) (S : Store) (c : Nat) (act : M Str) : Prop :=
  ∃ cls f fs, S[c]? = some (.inst cls fs) ∧ findMethod cls .convert = some (cls, .plain, f) ∧
    methodIn cls .convert = some f ∧ cls ≠ .Exception ∧ look .convert fs = none ∧
    ∀ S2 H2, Ext S S2 → Dicts id N H2 S2 → Runs (fun n => call env n f [.obj c] [] S2) (Agrees id N S2 (act H2))

theorem Acts.mono {env : Env} {N : Nat → Prop} {S S' : Store} {c : Nat} {act : M Str}
    (h : Acts env N S c act) (he : Ext S S') : Acts env N S' c act := by
  obtain ⟨cls, f, fs, h1, h2, h3, h4, h5, h6⟩ := h
  exact ⟨cls, f, fs, he.get h1 rfl, h2, h3, h4, h5, fun S2 H2 he2 => h6 S2 H2 (he.trans he2)⟩

/-- The converters of the store are those of the model. -/
inductive AllAct (env : Env) (N : Nat → Prop) (S : Store) : List (Elem × Nat) → List (Elem × M Str) → Prop
  | nil : AllAct env N S [] []
  | cons {x c k cs ks} : Acts env N S c k → AllAct env N S cs ks → AllAct env N S ((x, c) :: cs) ((x, k) :: ks)

theorem AllAct.mono {env : Env} {N : Nat → Prop} {S S' : Store} {cs : List (Elem × Nat)}
    {ks : List (Elem × M Str)} (h : AllAct env N S cs ks) (he : Ext S S') : AllAct env N S' cs ks := by
  induction h with
  | nil => exact .nil
  | cons h _ ih => exact .cons (h.mono he) ih

theorem AllAct.find {env : Env} {N : Nat → Prop} {S : Store} {cs : List (Elem × Nat)}
    {ks : List (Elem × M Str)} (h : AllAct env N S cs ks) {x : Elem} {c : Nat} (hc : (x, c) ∈ cs) :
    ∃ k, (x, k) ∈ ks ∧ Acts env N S c k := by
  induction h with
  | nil => cases hc
  | cons h _ ih =>
    rcases List.mem_cons.1 hc with e | hc
    · cases e
      exact ⟨_, List.mem_cons_self, h⟩
    · obtain ⟨k, h1, h2⟩ := ih hc
      exact ⟨k, List.mem_cons_of_mem _ h1, h2⟩

mutual
theorem Stands.isElem {S : Store} {h : Heap} {x : Elem} {a : Nat} (H : Stands S h x a) :
    IsElem id (Described S h) S x a := by
  cases H with
  | mk h1 h2 h3 h4 =>
    unfold IsElem
    exact ⟨h3, _, _, h1, h2, h4.isElems⟩
theorem Stand.isElems {S : Store} {h : Heap} {xs : List Elem} {as : List Nat} (H : Stand S h xs as) :
    IsElems id (Described S h) S xs as := by
  cases H with
  | nil => unfold IsElems; trivial
  | cons h1 h2 =>
    unfold IsElems
    exact ⟨h1.isElem, h2.isElems⟩
end

theorem described (S : Store) (h : Heap) : Dicts id (Described S h) h S := .of (fun _ h => h) fun _ _ _ _ e => e

theorem Elsewhere.ext {N : Nat → Prop} {S S' : Store} (h : Elsewhere N S S') : Ext S S' :=
  ⟨h.length, fun ha hd => h.rest _ _ ha hd⟩

theorem Elsewhere.dicts {N : Nat → Prop} {S S' : Store} (h : Elsewhere N S S') {H : Heap}
    (hd : Dicts id N H S) : Dicts id N H S' :=
  .of (fun r hr => (h.mine r hr).trans (hd.get r hr)) hd.inj

/-- Creating a converter. -/
theorem run_create {env : Env} {N : Nat → Prop} {S : Store} {H : Heap} {x : Elem} {ad a : Nat}
    (h1 : S[ad]? = some adapterObj) (hi : IsElem id N S x a) (hd : Dicts id N H S) :
    ∃ c S1 H1 act, Gives env createCode [.obj ad, .obj a] S (.ok (.obj c) S1) ∧ toConv x H = (.ok act, H1) ∧
      Ext S S1 ∧ Dicts id N H1 S1 ∧ Acts env N S1 c act := by
  obtain ⟨name, value, r, cs⟩ := x
  unfold IsElem at hi
  obtain ⟨hr, la, as, h2, h3, h4⟩ := hi
  have he := Ext.app S (choiceObjs ad name)
  have hat : At id N H (S ++ choiceObjs ad name) ad a name value r cs la as :=
    ⟨look_old _ h1, look_old _ h2, look_old _ h3, hr, h4.mono he, hd.app _⟩
  obtain ⟨_, ⟨c, S1, H1, act, cls, f, fs, rfl, m1, m2, m3, m4, m5, m6, m7, m9, m8⟩, hk⟩ :=
    made_known (env := env) hat
  have hch := run_choice h1 h2 hk
  refine ⟨c, S1, H1, act, ⟨2 * deeps cs + 13, fun n hn => ?_⟩, by rw [toConv]; exact m1, he.trans m2, m9,
    cls, f, fs, m3, m4, m5, m6, m7, fun S2 H2 he2 hd2 => (m8 S2 H2 he2 hd2).runs⟩
  obtain ⟨n, rfl⟩ : ∃ m, n = m + 1 := ⟨n - 1, by omega⟩
  replace hch := hch n (by omega)
  sym [createCode] [h1, hch]

/-- Calling `convert` on one. -/
theorem run_render {env : Env} {N : Nat → Prop} {S : Store} {H : Heap} {c : Nat} {act : M Str}
    (ha : Acts env N S c act) (hd : Dicts id N H S) :
    ∃ r, Gives env renderCode [.obj c] S r ∧ Agrees id N S (act H) r := by
  obtain ⟨cls, f, fs, h1, h2, h3, h4, h5, h6⟩ := ha
  obtain ⟨r, h7, k, hk⟩ := h6 S H (.refl S) hd
  refine ⟨r, ⟨k + 1, fun n hn => ?_⟩, h7⟩
  obtain ⟨n, rfl⟩ : ∃ m, n = m + 1 := ⟨n - 1, by omega⟩
  replace hk := hk n (by omega)
  rcases h7 with ⟨s, H', h', _, rfl, _⟩ | ⟨e, H', v, h', _, rfl, _⟩
  · dsimp only at hk
    sym [renderCode] [h1, h2, h3, h5, hk]
  · dsimp only at hk
    sym [renderCode] [h1, h2, h3, h5, hk]

theorem Agrees.state {N : Nat → Prop} {S : Store} {x : Except Exc Str × Heap} {r : Res Val}
    (h : Agrees id N S x r) : ∃ S', Ext S S' ∧ Dicts id N x.2 S' ∧
      ((∃ s, x.1 = .ok s ∧ r = .ok (.str s) S') ∨ ∃ e v, x.1 = .error e ∧ r = .exc v S' ∧ Raised S' v e) := by
  rcases h with ⟨s, H', h', rfl, rfl, h3, h4⟩ | ⟨e, H', v, h', rfl, rfl, h3⟩
  · exact ⟨h', h3, h4, .inl ⟨s, rfl, rfl⟩⟩
  · exact ⟨h', h3.ext, h3.dicts, .inr ⟨e, v, rfl, rfl, h3.raised⟩⟩

theorem Agrees.seen {N : Nat → Prop} {S : Store} {x : Except Exc Str × Heap} {r : Res Val}
    (h : Agrees id N S x r) : Seen x.1 r := by
  obtain ⟨S', _, _, ⟨s, h1, rfl⟩ | ⟨e, v, h1, rfl, h3⟩⟩ := h.state
  · rw [h1]; exact .ok s S'
  · rw [h1]; exact .exc h3

/-- What the source does is a history of the model. -/
theorem Uses.history {env : Env} {root : Elem} {S0 : Store} {h0 : Heap} {cs : List (Elem × Nat)} {S : Store}
    (hu : Uses env root S0 h0 cs S) : ∃ ks H, History root h0 ks H ∧ Ext S0 S ∧
      Dicts id (Described S0 h0) H S ∧ AllAct env (Described S0 h0) S cs ks := by
  induction hu with
  | start => exact ⟨[], h0, .start, .refl _, described S0 h0, .nil⟩
  | create _ hw hs had hg ih =>
    obtain ⟨ks, H, h1, h2, h3, h4⟩ := ih
    obtain ⟨c, S1, H1, act, g1, g2, g3, g4, g5⟩ := run_create (env := env) had (hs.isElem.mono h2) h3
    cases hg.unique g1
    exact ⟨_, _, .create h1 hw g2, h2.trans g3, g4, .cons g5 (h4.mono g3)⟩
  | convert _ hc hg ih =>
    obtain ⟨ks, H, h1, h2, h3, h4⟩ := ih
    obtain ⟨k, hk, ha⟩ := h4.find hc
    obtain ⟨r, r1, r2⟩ := run_render ha h3
    cases hg.unique r1
    obtain ⟨S', s1, s2, ⟨s, _, e⟩ | ⟨_, _, _, e, _⟩⟩ := r2.state
    · cases e
      exact ⟨ks, _, .convert h1 hk, h2.trans s1, s2, h4.mono s1⟩
    · cases e
  | failed _ hc hg ih =>
    obtain ⟨ks, H, h1, h2, h3, h4⟩ := ih
    obtain ⟨k, hk, ha⟩ := h4.find hc
    obtain ⟨r, r1, r2⟩ := run_render ha h3
    cases hg.unique r1
    obtain ⟨S', s1, s2, ⟨s, _, e⟩ | ⟨_, _, _, e, _⟩⟩ := r2.state
    · cases e
    · cases e
      exact ⟨ks, _, .convert h1 hk, h2.trans s1, s2, h4.mono s1⟩
  | other _ he ih =>
    obtain ⟨ks, H, h1, h2, h3, h4⟩ := ih
    exact ⟨ks, H, h1, h2.trans he.ext, he.dicts h3, h4.mono he.ext⟩

/-! ## The claims -/

/-- **C84** Creating a converter for an element always ends, and with a converter. -/
theorem C84_create (env : Env) (root : Elem) (S0 S : Store) (h0 : Heap) (cs : List (Elem × Nat))
    (hu : Uses env root S0 h0 cs S) (x : Elem) (b ad : Nat) (hs : Stands S0 h0 x b)
    (had : S[ad]? = some (.inst .MathMLElementToLatexConverterAdapter [])) :
    ∃ c S', Gives env createCode [.obj ad, .obj b] S (.ok (.obj c) S') := by
  obtain ⟨ks, H, h1, h2, h3, h4⟩ := hu.history
  obtain ⟨c, S1, H1, act, g1, _⟩ := run_create (env := env) had (hs.isElem.mono h2) h3
  exact ⟨c, S1, g1⟩

/-- **C84** A converter for the root gives the LaTeX that the root has on its own, whatever has
been done with the tree before. -/
theorem C84_root (env : Env) (root : Elem) (S0 S : Store) (h0 : Heap) (cs : List (Elem × Nat))
    (hr : Unshared root) (hu : Uses env root S0 h0 cs S) (c : Nat) (hc : (root, c) ∈ cs) :
    ∃ r, Gives env renderCode [.obj c] S r ∧ Seen (convertElem root h0).1 r := by
  obtain ⟨ks, H, h1, h2, h3, h4⟩ := hu.history
  obtain ⟨k, hk, ha⟩ := h4.find hc
  obtain ⟨r, r1, r2⟩ := run_render ha h3
  rw [← C76_converter root h0 H ks hr h1 k hk]
  exact ⟨r, r1, r2.seen⟩

/-- **C84** If the elements are those of a document, then the LaTeX is that of the document. -/
theorem C84_document (env : Env) (n : Node) (root e' : Elem) (S0 S : Store) (h0 h0' h1 : Heap)
    (cs : List (Elem × Nat)) (hb : buildElem n h0' = (some e', h1)) (hr : Unshared root)
    (hs : SameTree h0 h1 root e') (hu : Uses env root S0 h0 cs S) (c : Nat) (hc : (root, c) ∈ cs) :
    ∃ r, Gives env renderCode [.obj c] S r ∧ Seen (latexOf n) r := by
  rw [← C76_document n root e' h0 h0' h1 h0 [] hb hr hs .start]
  exact C84_root env root S0 S h0 cs hr hu c hc

/-- **C84** A converter of any element does what it does in the model after a history of the model,
in whatever way dictionaries are shared; so it ends with a string or an exception of the model. -/
theorem C84_ends (env : Env) (root : Elem) (S0 S : Store) (h0 : Heap) (cs : List (Elem × Nat))
    (hu : Uses env root S0 h0 cs S) (x : Elem) (c : Nat) (hc : (x, c) ∈ cs) :
    ∃ r k ks H, Gives env renderCode [.obj c] S r ∧ History root h0 ks H ∧ (x, k) ∈ ks ∧ Seen (k H).1 r := by
  obtain ⟨ks, H, h1, h2, h3, h4⟩ := hu.history
  obtain ⟨k, hk, ha⟩ := h4.find hc
  obtain ⟨r, r1, r2⟩ := run_render ha h3
  exact ⟨r, k, ks, H, r1, h1, hk, r2.seen⟩

/-- **C84** The first use of a tree gives what the model gives, in whatever way dictionaries are
shared. -/
theorem C84_first (env : Env) (root : Elem) (S0 : Store) (h0 : Heap) (a ad : Nat) (hs : Stands S0 h0 root a)
    (had : S0[ad]? = some (.inst .MathMLElementToLatexConverterAdapter [])) :
    ∃ c S r, Gives env createCode [.obj ad, .obj a] S0 (.ok (.obj c) S) ∧
      Gives env renderCode [.obj c] S r ∧ Seen (convertElem root h0).1 r := by
  obtain ⟨c, S1, H1, act, g1, g2, g3, g4, g5⟩ := run_create (env := env) had hs.isElem (described S0 h0)
  obtain ⟨r, r1, r2⟩ := run_render g5 g4
  refine ⟨c, S1, r, g1, r1, ?_⟩
  have : convertElem root h0 = act H1 := by
    obtain ⟨name, value, d, cs⟩ := root
    rw [convertElem, Stack.M_bind_ok g2]
  rw [this]
  exact r2.seen

/-- **C84** Nothing but dictionaries of the tree is changed by any of this, and objects are made. -/
theorem C84_leaves (env : Env) (root : Elem) (S0 S : Store) (h0 : Heap) (cs : List (Elem × Nat))
    (hu : Uses env root S0 h0 cs S) (a : Nat) (o : Obj) (ha : S0[a]? = some o) (ho : isDict o = false) :
    S[a]? = some o := by
  obtain ⟨ks, H, h1, h2, h3, h4⟩ := hu.history
  exact h2.get ha ho

/-- **C84** The attributes of the elements stay as they were; only tables inside tables may get one
more, the flag of the code base. -/
theorem C84_attributes (env : Env) (root : Elem) (S0 S : Store) (h0 : Heap) (cs : List (Elem × Nat))
    (hr : Unshared root) (hu : Uses env root S0 h0 cs S) (d : Nat) (hd : Described S0 h0 d) :
    (¬ TableIn false root true d → S[d]? = S0[d]?) ∧
    ∃ A, S[d]? = some (.dict A) ∧ ∀ key, key ≠ c!"innerTable" →
      Dict.get? A key = (Dict.get? (h0.cells d) key).map .str := by
  obtain ⟨ks, H, h1, h2, h3, h4⟩ := hu.history
  obtain ⟨a, _, _⟩ := h1.inv (c0 := h0.cells) hr.wfT ⟨fun _ _ => rfl, fun _ _ _ _ => rfl, fun _ h => h.elim⟩
  refine ⟨fun hn => ?_, _, h3.get d hd, fun key hk => ?_⟩
  · have h5 : S[d]? = some (.dict (dictVal (H.cells d))) := h3.get d hd
    rw [h5, a.frame d hn]
    exact hd.symm
  · rw [get_dictVal]
    have e1 := a.agree d key c!"" hk
    have e2 := a.agree d key c!"x" hk
    unfold Attrs.getD at e1 e2
    revert e1 e2
    cases Dict.get? (H.cells d) key <;> cases Dict.get? (h0.cells d) key <;> simp
    · rintro rfl h; cases h
    · rintro rfl h; cases h

/-! ## An example -/

/-- A call of the constructor. -/
def makeExpr (name value : Str) (children attributes : Expr) : Expr :=
  .call (.name .GenericMathMLElement) [.str name, .str value, children, attributes] [] []

/-- ```
def make():
    attributes = {}
    child = GenericMathMLElement("mi", "x", [], attributes)
    return GenericMathMLElement("mfrac", "", [child, child], attributes)
``` -/
def makeCode : Func :=
  ⟨[], [.assign .attributes (.dict [] []),
    .assign .child (makeExpr c!"mi" c!"x" (.list []) (.name .attributes)),
    .ret (makeExpr c!"mfrac" c!"" (.list [.name .child, .name .child]) (.name .attributes))]⟩

/-- What it leaves in the store after an adapter. -/
def madeStore : Store :=
  [.inst .MathMLElementToLatexConverterAdapter [], .dict [], .list [],
   .inst .GenericMathMLElement [(._name, .str c!"mi"), (._value, .str c!"x"), (._children, .obj 2), (._attributes, .obj 1)],
   .list [.obj 3, .obj 3],
   .inst .GenericMathMLElement [(._name, .str c!"mfrac"), (._value, .str c!""), (._children, .obj 4), (._attributes, .obj 1)]]

theorem makes (env : Env) : Gives env makeCode [] [.inst .MathMLElementToLatexConverterAdapter []] (.ok (.obj 5) madeStore) := by
  refine ⟨2, fun n hn => ?_⟩
  obtain ⟨n, rfl⟩ : ∃ m, n = m + 2 := ⟨n - 2, by omega⟩
  sym [makeCode, makeExpr, madeStore] []
  rfl

/-- `x` divided by itself; the two children are one object, and there is one dictionary for all. -/
def quotient : Elem := .mk c!"mfrac" [] 1 [.mk c!"mi" c!"x" 1 [], .mk c!"mi" c!"x" 1 []]

theorem quotient_stands : Stands madeStore Heap.empty quotient 5 :=
  .mk (as := [3, 3]) rfl rfl rfl (.cons (.mk (as := []) rfl rfl rfl .nil) (.cons (.mk (as := []) rfl rfl rfl .nil) .nil))

theorem quotient_unshared : Unshared quotient := by
  refine C76_flat _ fun r h => ?_
  cases h with
  | inOther _ hc h =>
    simp only [List.mem_cons, List.not_mem_nil, or_false, or_self] at hc
    subst hc
    cases h with
    | inOther _ hc _ => cases hc

/-- The converter is made and used twice. -/
example (env : Env) : ∃ c S v S' r, Uses env quotient madeStore Heap.empty [(quotient, c)] S ∧
    Gives env renderCode [.obj c] S (.ok v S') ∧ v = .str c!"\\frac{x}{x}" ∧
    Gives env renderCode [.obj c] S' r ∧ Seen (.ok c!"\\frac{x}{x}") r := by
  have hq : (convertElem quotient Heap.empty).1 = .ok c!"\\frac{x}{x}" := by decide +kernel
  obtain ⟨c, S, h1⟩ := C84_create env quotient madeStore madeStore Heap.empty [] .start quotient 5 0 quotient_stands rfl
  have hu : Uses env quotient madeStore Heap.empty [(quotient, c)] S := .create .start .self quotient_stands rfl h1
  obtain ⟨r, r1, r2⟩ := C84_root env quotient madeStore S Heap.empty _ quotient_unshared hu c List.mem_cons_self
  rw [hq] at r2
  cases r2 with
  | ok s S' =>
    obtain ⟨r, q1, q2⟩ := C84_root env quotient madeStore S' Heap.empty _ quotient_unshared
      (.convert hu List.mem_cons_self r1) c List.mem_cons_self
    rw [hq] at q2
    exact ⟨c, S, _, S', r, hu, r1, rfl, q1, q2⟩

end Verif.Src
