import Verif.Refine.Repeat
import Verif.Spec.Made

/-!
# A conversion that is repeated makes no new marks

The dictionaries that a conversion marks depend on the tree and on the attributes, but not on the marks
that are there.  So if all that it has marked is marked still, it changes nothing.
-/

namespace Verif
open Spec

theorem Dict.set_set {β : Type} (d : Dict β) (k : Str) (v : β) : Dict.set (Dict.set d k v) k v = Dict.set d k v := by
  have hmap : ∀ d : Dict β, (d.map fun p => if p.1 = k then (k, v) else p).map (fun p => if p.1 = k then (k, v) else p) =
      d.map fun p => if p.1 = k then (k, v) else p := by
    intro d
    rw [List.map_map]
    refine List.map_congr_left fun p _ => ?_
    simp only [Function.comp]
    by_cases h : p.1 = k <;> simp [h]
  by_cases h : d.any (fun p => p.1 == k) = true
  · have e : Dict.set d k v = d.map fun p => if p.1 = k then (k, v) else p := by rw [Dict.set, if_pos h]
    have h' : (d.map fun p => if p.1 = k then (k, v) else p).any (fun p => p.1 == k) = true := by
      obtain ⟨p, hp, hk⟩ := List.any_eq_true.1 h
      refine List.any_eq_true.2 ⟨_, List.mem_map.2 ⟨p, hp, rfl⟩, ?_⟩
      rw [if_pos (by simpa using hk)]
      simp
    rw [e, Dict.set, if_pos h', hmap]
  · have e : Dict.set d k v = d ++ [(k, v)] := by rw [Dict.set, if_neg h]
    rw [e, Dict.set, if_pos (by simp), List.map_append]
    congr 1
    · refine (List.map_congr_left fun p hp => ?_).trans (List.map_id d)
      rw [if_neg]
      · rfl
      · intro hk
        exact h (List.any_eq_true.2 ⟨p, hp, by simp [hk]⟩)
    · simp

/-- `K` is `H` with marks on some of the dictionaries. -/
structure Marks (H K : Heap) : Prop where
  next : K.next = H.next
  cells : ∀ r, K.cells r = H.cells r ∨ K.cells r = Dict.set (H.cells r) innerTable innerTable

theorem Marks.refl (H : Heap) : Marks H H := ⟨rfl, fun _ => .inl rfl⟩

theorem Marks.trans {H K L : Heap} (h : Marks H K) (h' : Marks K L) : Marks H L := by
  refine ⟨h'.next.trans h.next, fun r => ?_⟩
  rcases h.cells r with e | e <;> rcases h'.cells r with e' | e' <;> rw [e', e]
  · exact .inl rfl
  · exact .inr rfl
  · exact .inr rfl
  · exact .inr (Dict.set_set _ _ _)

theorem Marks.getD {H K : Heap} (h : Marks H K) (r : Nat) {key : Str} (hk : key ≠ innerTable) (d : Str) :
    Attrs.getD (K.cells r) key d = Attrs.getD (H.cells r) key d := by
  rcases h.cells r with e | e
  · rw [e]
  · rw [e, Attrs.getD_set, if_neg hk]

theorem Heap.ext {H K : Heap} (h : H.next = K.next) (h' : ∀ r, H.cells r = K.cells r) : H = K := by
  obtain ⟨n, c⟩ := H
  obtain ⟨n', c'⟩ := K
  cases h
  cases (funext h' : c = c')
  rfl

theorem Marks.setItem (H : Heap) (r : Nat) : Marks H (H.setItem r innerTable innerTable) := by
  refine ⟨rfl, fun r' => ?_⟩
  unfold Heap.setItem
  dsimp only
  split
  · rename_i e
    rw [e]
    exact .inr rfl
  · exact .inl rfl

/-- A mark that is there already. -/
theorem Marks.stay {H K : Heap} {r : Nat} (h : Marks (H.setItem r innerTable innerTable) K) :
    K.setItem r innerTable innerTable = K := by
  refine Heap.ext rfl fun r' => ?_
  show (if r' = r then _ else _) = _
  split
  · rename_i e
    subst e
    have e1 : (H.setItem r' innerTable innerTable).cells r' = Dict.set (H.cells r') innerTable innerTable := by
      unfold Heap.setItem
      exact if_pos rfl
    rcases h.cells r' with e | e <;> rw [e, e1]
    · exact Dict.set_set _ _ _
    · rw [Dict.set_set, Dict.set_set]
  · rfl

/-- Both end with a result, or both with an exception. -/
def Both {α β : Type} : Except Exc α → Except Exc β → Prop
  | .ok _, .ok _ => True
  | .error _, .error _ => True
  | _, _ => False

/-- `m` only makes marks, and where all of them are there already, `m'` makes none. -/
structure Again {α β : Type} (m : M α) (m' : M β) : Prop where
  marks : ∀ H, Marks H (m H).2
  stays : ∀ H K, Marks H K → Marks (m H).2 K → (m' K).2 = K ∧ Both (m H).1 (m' K).1

namespace Again
variable {α β γ δ : Type}

theorem ok (a : α) (b : β) : Again (pure a : M α) (pure b : M β) :=
  ⟨fun H => .refl H, fun _ _ _ _ => ⟨rfl, trivial⟩⟩

theorem err (e e' : Exc) : Again (throw e : M α) (throw e' : M β) :=
  ⟨fun H => .refl H, fun _ _ _ _ => ⟨rfl, trivial⟩⟩

theorem attrs (r r' : Nat) : Again (attributes r) (attributes r') :=
  ⟨fun H => .refl H, fun _ _ _ _ => ⟨rfl, trivial⟩⟩

/-- One after the other; the results may be used. -/
theorem bind' {m : M α} {m' : M β} {f : α → M γ} {f' : β → M δ} (h : Again m m')
    (hm : ∀ H a, (m H).1 = .ok a → ∀ H', Marks H' (f a H').2)
    (hf : ∀ H K a b, Marks H K → (m H).1 = .ok a → (m' K).1 = .ok b → Again (f a) (f' b)) :
    Again (m >>= f) (m' >>= f') := by
  refine ⟨fun H => ?_, fun H K hk hk' => ?_⟩
  · rw [run_bind]
    cases hr : (m H).1 with
    | error e => exact h.marks H
    | ok a => exact (h.marks H).trans (hm H a hr _)
  · rw [run_bind] at hk' ⊢
    cases hr : (m H).1 with
    | error e =>
      rw [hr] at hk'
      obtain ⟨h1, h2⟩ := h.stays H K hk hk'
      rw [run_bind, h1, hr]
      rw [hr] at h2
      cases hr' : (m' K).1 with
      | error e' => exact ⟨rfl, trivial⟩
      | ok b => rw [hr'] at h2; exact h2.elim
    | ok a =>
      rw [hr] at hk'
      dsimp only at hk'
      have hk1 := (hm H a hr (m H).2).trans hk'
      obtain ⟨h1, h2⟩ := h.stays H K hk hk1
      rw [run_bind, h1, hr]
      rw [hr] at h2
      cases hr' : (m' K).1 with
      | error e' => rw [hr'] at h2; exact h2.elim
      | ok b => exact (hf H K a b hk hr hr').stays _ K hk1 hk'

theorem bind {m : M α} {m' : M β} {f : α → M γ} {f' : β → M δ} (h : Again m m') (hf : ∀ a b, Again (f a) (f' b))
    [Inhabited β] : Again (m >>= f) (m' >>= f') :=
  bind' h (fun _ a _ => (hf a default).marks) fun _ _ a b _ _ _ => hf a b
end Again

/-- The actions of the children. -/
def KidsAgain (kids : List Kid) : Prop := ∀ k ∈ kids, Again k.2 k.2

theorem again_runKids : ∀ {kids : List Kid}, KidsAgain kids → Again (runKids kids) (runKids kids)
  | [], _ => .ok _ _
  | k :: _, h => .bind (h k List.mem_cons_self) fun _ _ =>
      .bind (again_runKids fun k' hk => h k' (List.mem_cons_of_mem _ hk)) fun _ _ => .ok _ _

theorem again_base {k : Kid} (h : Again k.2 k.2) : Again (handleBaseChild k) (handleBaseChild k) := by
  refine .bind h fun _ _ => ?_
  split <;> exact .ok _ _

theorem again_script {k : Kid} (h : Again k.2 k.2) : Again (handleScriptChild k) (handleScriptChild k) :=
  .bind h fun _ _ => .ok _ _

theorem again_pair (p : Str) {k k' : Kid} (h : Again k.2 k.2) (h' : Again k'.2 k'.2) :
    Again (scriptPair p k k') (scriptPair p k k') :=
  .bind h fun _ _ => .bind h' fun _ _ => .ok _ _

mutual
theorem again_flag (e : Elem) : Again (addFlag1 c!"mtable" innerTable e) (addFlag1 c!"mtable" innerTable e) := by
  obtain ⟨n, v, r, cs⟩ := e
  rw [addFlag1]
  by_cases hn : (n == c!"mtable") = true
  · simp only [hn, if_true]
    exact .bind ⟨fun H => .setItem H r, fun H K _ h => ⟨h.stay, trivial⟩⟩ fun _ _ => again_flags cs
  · simp only [hn]
    exact .bind (.ok () ()) fun _ _ => again_flags cs
theorem again_flags (es : List Elem) :
    Again (addFlagRecursiveIfName c!"mtable" innerTable es) (addFlagRecursiveIfName c!"mtable" innerTable es) := by
  match es with
  | [] => rw [addFlagRecursiveIfName]; exact .ok _ _
  | e :: es =>
    rw [addFlagRecursiveIfName]
    exact .bind (again_flag e) fun _ _ => again_flags es
end

theorem again_enclose (s s' : Str) {kids : List Kid} (hk : KidsAgain kids) : Again (mencloseConvert s kids) (mencloseConvert s' kids) :=
  .bind (again_runKids hk) fun _ _ => .ok _ _

theorem again_fenced (s t s' t' : Str) (l l' : List Str) {kids : List Kid} (hk : KidsAgain kids) :
    Again (mfencedConvert s t l kids) (mfencedConvert s' t' l' kids) := by
  refine .bind (again_runKids hk) fun _ _ => ?_
  split <;> exact .ok _ _

theorem again_pre {kids : List Kid} (hk : KidsAgain kids) : Again (prescriptLatex kids) (prescriptLatex kids) := by
  unfold prescriptLatex
  split
  · split
    · exact again_pair _ (hk _ (by simp)) (hk _ (by simp))
    · split
      · split
        · exact again_pair _ (hk _ (by simp)) (hk _ (by simp))
        · exact .ok _ _
      · exact .ok _ _
  · exact .ok _ _

theorem again_post {kids : List Kid} (hk : KidsAgain kids) : Again (postscriptLatex kids) (postscriptLatex kids) := by
  unfold postscriptLatex
  split
  · split
    · exact .ok _ _
    · exact again_pair _ (hk _ (by simp)) (hk _ (by simp))
  · exact .ok _ _

theorem again_choice (p : Prop) [Decidable p] (kids : List Kid) : KidsAgain kids →
    Again
      (if p then (do return join c!" \\Longrightarrow " (← runKids kids) : M Str)
      else match kids with
        | [] => throw .indexError
        | k :: _ => k.2)
      (if p then (do return join c!" \\Longrightarrow " (← runKids kids) : M Str)
      else match kids with
        | [] => throw .indexError
        | k :: _ => k.2) := by
  intro hk
  split
  · exact .bind (again_runKids hk) fun _ _ => .ok _ _
  · split
    · exact .err _ _
    · exact hk _ (by simp)

theorem again_maction (r : Nat) {kids : List Kid} (hk : KidsAgain kids) : Again (mactionConvert r kids) (mactionConvert r kids) := by
  unfold mactionConvert
  refine .bind' (.attrs r r) (fun _ a _ => (again_choice _ kids hk).marks) fun H K a b hk' ha hb => ?_
  cases ha
  cases hb
  have e := hk'.getD r (key := c!"actiontype") (by decide) []
  dsimp only
  rw [e]
  exact again_choice _ kids hk

/-- Two converters of the same element. -/
theorem again_construct {kind : Kind} {name value : Str} {aref : Nat} {cs : List Elem} {kids : List Kid} (hk : KidsAgain kids)
    {H K : Heap} {k k' : M Str} (h : (construct kind name value aref cs kids H).1 = .ok k)
    (h' : (construct kind name value aref cs kids K).1 = .ok k') : Again k k' := by
  have hr := again_runKids hk
  cases kind with
  | mfenced => cases h; cases h'; exact again_fenced _ _ _ _ _ _ hk
  | menclose => cases h; cases h'; exact again_enclose _ _ hk
  | mtable =>
    have e : ∀ {H k}, (construct .mtable name value aref cs kids H).1 = .ok k → k = mtableConvert aref kids := by
      intro H k h
      unfold construct at h
      dsimp only at h
      rw [run_bind] at h
      split at h
      · cases h; rfl
      · cases h
    rw [e h, e h']
    refine .bind hr fun _ _ => .bind (.attrs _ _) fun _ _ => ?_
    split <;> split <;> exact .ok _ _
  | math => cases h; cases h'; exact .bind hr fun _ _ => .ok _ _
  | mi => cases h; cases h'; exact .bind (.attrs _ _) fun _ _ => .ok _ _
  | mo => cases h; cases h'; exact .ok _ _
  | mn => cases h; cases h'; exact .ok _ _
  | msqrt => cases h; cases h'; exact .bind hr fun _ _ => .ok _ _
  | mfrac =>
    cases h; cases h'
    unfold mfracConvert
    split
    · refine .bind (hk _ (by simp)) fun _ _ => .bind (hk _ (by simp)) fun _ _ => .bind (.attrs _ _) fun _ _ => ?_
      split <;> split <;> exact .ok _ _
    · exact .err _ _
  | mroot =>
    cases h; cases h'
    unfold mrootConvert
    split
    · exact .bind (hk _ (by simp)) fun _ _ => .bind (hk _ (by simp)) fun _ _ => .ok _ _
    · exact .err _ _
  | maction => cases h; cases h'; exact again_maction _ hk
  | merror => cases h; cases h'; exact .bind hr fun _ _ => .ok _ _
  | void => cases h; cases h'; exact .ok _ _
  | msup =>
    cases h; cases h'
    unfold msupConvert
    split
    · exact .bind (again_base (hk _ (by simp))) fun _ _ => .bind (again_script (hk _ (by simp))) fun _ _ => .ok _ _
    · exact .err _ _
  | msub =>
    cases h; cases h'
    unfold msubConvert
    split
    · exact .bind (again_base (hk _ (by simp))) fun _ _ => .bind (again_script (hk _ (by simp))) fun _ _ => .ok _ _
    · exact .err _ _
  | msubsup =>
    cases h; cases h'
    unfold msubsupConvert
    split
    · exact .bind (again_base (hk _ (by simp))) fun _ _ => .bind (again_script (hk _ (by simp))) fun _ _ =>
        .bind (again_script (hk _ (by simp))) fun _ _ => .ok _ _
    · exact .err _ _
  | mmultiscripts =>
    cases h; cases h'
    have h1 := again_pre hk
    have h2 := again_post hk
    unfold mmultiscriptsConvert
    split
    · exact .bind (hk _ (by simp)) fun _ _ => .bind h1 fun _ _ => .bind h2 fun _ _ => .ok _ _
    · exact .err _ _
  | mtext => cases h; cases h'; exact .bind (.attrs _ _) fun _ _ => .ok _ _
  | munderover =>
    cases h; cases h'
    unfold munderoverConvert
    split
    · exact .bind (hk _ (by simp)) fun _ _ => .bind (hk _ (by simp)) fun _ _ => .bind (hk _ (by simp)) fun _ _ => .ok _ _
    · exact .err _ _
  | mtr => cases h; cases h'; exact .bind hr fun _ _ => .ok _ _
  | underOver =>
    cases h; cases h'
    unfold underOverConvert
    split
    · exact .bind (hk _ (by simp)) fun _ _ => .bind (hk _ (by simp)) fun _ _ => .ok _ _
    · exact .err _ _
  | spacing => cases h; cases h'; exact .bind hr fun _ _ => .ok _ _

/-- Creating one again. -/
theorem again_create (kind : Kind) (name value : Str) (aref : Nat) (cs : List Elem) (kids : List Kid) :
    Again (construct kind name value aref cs kids) (construct kind name value aref cs kids) := by
  cases kind with
  | mfenced => exact .bind' (.attrs _ _) (fun _ _ _ H => .refl H) fun _ _ _ _ _ _ _ => .ok _ _
  | menclose => exact .bind' (.attrs _ _) (fun _ _ _ H => .refl H) fun _ _ _ _ _ _ _ => .ok _ _
  | mtable => exact .bind' (again_flags cs) (fun _ _ _ H => .refl H) fun _ _ _ _ _ _ _ => .ok _ _
  | _ => exact .ok _ _

theorem again_toConv (e : Elem) : Again (toConv e) (toConv e) := by
  obtain ⟨n, v, r, cs⟩ := e
  rw [toConv]
  exact again_create ..

mutual
theorem again_converter (e : Elem) {H K : Heap} {k k' : M Str} (h : (toConv e H).1 = .ok k) (h' : (toConv e K).1 = .ok k') :
    Again k k' := by
  obtain ⟨n, v, r, cs⟩ := e
  rw [toConv] at h h'
  exact again_construct (again_kids cs) h h'
theorem again_kids (es : List Elem) : KidsAgain (kidsOf es) := by
  match es with
  | [] => simp [kidsOf, KidsAgain]
  | e :: es =>
    intro k hk
    rw [kidsOf] at hk
    rcases List.mem_cons.1 hk with rfl | hk
    · exact .bind' (again_toConv e) (fun H a ha => (again_converter e ha ha).marks)
        fun H K a b _ ha hb => again_converter e ha hb
    · exact again_kids es k hk
end

/-- The converters of a history, and when they were made. -/
theorem Spec.History.made {root : Elem} {h0 : Heap} {ks : List (Elem × M Str)} {h : Heap} (hh : History root h0 ks h) :
    ∀ e k, (e, k) ∈ ks → ∃ H H', toConv e H = (.ok k, H') ∧ Marks H' h := by
  induction hh with
  | start => intro e k hk; cases hk
  | @create ks h x k' h' _ _ hc ih =>
    have hm := (again_toConv x).marks h
    rw [hc] at hm
    intro e k hk
    rcases List.mem_cons.1 hk with he | hk
    · cases he
      exact ⟨h, h', hc, .refl _⟩
    · obtain ⟨H, H', h1, h2⟩ := ih e k hk
      exact ⟨H, H', h1, h2.trans hm⟩
  | @convert ks h x k' hh hk' ih =>
    obtain ⟨H, H', h1, h2⟩ := ih x k' hk'
    have hm := (again_converter x (congrArg Prod.fst h1) (congrArg Prod.fst h1)).marks h
    intro e k hk
    obtain ⟨H, H', h1, h2⟩ := ih e k hk
    exact ⟨H, H', h1, h2.trans hm⟩

theorem Spec.History.marks {root : Elem} {h0 : Heap} {ks : List (Elem × M Str)} {h : Heap} (hh : History root h0 ks h)
    {e : Elem} {k : M Str} (hk : (e, k) ∈ ks) (H : Heap) : Marks H (k H).2 := by
  obtain ⟨G, G', h1, _⟩ := hh.made e k hk
  exact (again_converter e (congrArg Prod.fst h1) (congrArg Prod.fst h1)).marks H

/-- Converting again, and with another converter. -/
theorem Spec.History.again {root : Elem} {h0 : Heap} {ks : List (Elem × M Str)} {h K : Heap} (hh : History root h0 ks h)
    {e : Elem} {k : M Str} (hk : (e, k) ∈ ks) (hK : Marks (k h).2 K) :
    (k K).2 = K ∧ ∃ k', toConv e K = (.ok k', K) ∧ (k' K).2 = K := by
  obtain ⟨H, H', h1, h2⟩ := hh.made e k hk
  have a1 := again_converter e (congrArg Prod.fst h1) (congrArg Prod.fst h1)
  have m1 := a1.marks h
  have m2 := m1.trans hK
  refine ⟨(a1.stays h K m2 hK).1, ?_⟩
  have c := again_toConv e
  have m0 := c.marks H
  rw [h1] at m0
  have hs := c.stays H K (m0.trans (h2.trans m2)) (by rw [h1]; exact h2.trans m2)
  rw [h1] at hs
  cases hc : toConv e K with
  | mk r K' =>
    rw [hc] at hs
    obtain ⟨e1, e2⟩ := hs
    dsimp only at e1 e2
    rw [e1] at hc ⊢
    cases r with
    | error _ => exact e2.elim
    | ok k' =>
      refine ⟨k', rfl, ?_⟩
      exact ((again_converter e (congrArg Prod.fst h1) (congrArg Prod.fst hc)).stays h K m2 hK).1

/-! ## Where all marks are there -/

/-- The dictionary has the mark. -/
def Has (K : Heap) (r : Nat) : Prop := Dict.set (K.cells r) innerTable innerTable = K.cells r

theorem Has.stay {K : Heap} {r : Nat} (h : Has K r) : K.setItem r innerTable innerTable = K := by
  refine Heap.ext rfl fun r' => ?_
  show (if r' = r then _ else _) = _
  split
  · rename_i e
    rw [e]
    exact h
  · rfl

theorem Has.marks {H K : Heap} {r : Nat} (h : Has H r) (hm : Marks H K) : Has K r := by
  unfold Has at h ⊢
  rcases hm.cells r with e | e <;> rw [e]
  · exact h
  · rw [h, h]

theorem Spec.TableIn.inner {b b' : Bool} {e : Elem} {r : Nat} (h : TableIn b e b' r) (hb : b = false) : TableIn true e true r := by
  induction h with
  | here => exact .here
  | inTable hc h ih =>
    rename_i b'' _
    exact .inTable hc (by
      have : ∀ {b b' e r}, TableIn b e b' r → b = true → b' = true := by
        intro b b' e r h hb
        induction h with
        | here => exact hb
        | inTable _ _ ih => exact ih rfl
        | inOther _ _ _ ih => exact ih hb
      rw [this h rfl] at h
      exact h)
  | inOther hn hc _ ih => exact .inOther hn hc (ih hb)

mutual
theorem tableIn_of_refs (e : Elem) {r : Nat} (h : r ∈ tableRefs e) : TableIn true e true r := by
  obtain ⟨n, v, d, cs⟩ := e
  rw [tableRefs, List.mem_append] at h
  by_cases hn : n = c!"mtable"
  · subst hn
    rcases h with h | h
    · rw [if_pos rfl, List.mem_singleton] at h
      subst h
      exact .here
    · obtain ⟨c, hc, h⟩ := tableIn_of_refsL cs h
      exact .inTable hc h
  · rw [if_neg hn] at h
    rcases h with h | h
    · cases h
    · obtain ⟨c, hc, h⟩ := tableIn_of_refsL cs h
      exact .inOther hn hc h
theorem tableIn_of_refsL (es : List Elem) {r : Nat} (h : r ∈ tableRefsL es) : ∃ c ∈ es, TableIn true c true r := by
  match es with
  | [] => rw [tableRefsL] at h; cases h
  | e :: es =>
    rw [tableRefsL, List.mem_append] at h
    rcases h with h | h
    · exact ⟨e, List.mem_cons_self, tableIn_of_refs e h⟩
    · obtain ⟨c, hc, h⟩ := tableIn_of_refsL es h
      exact ⟨c, List.mem_cons_of_mem _ hc, h⟩
end

theorem refs_child {c : Elem} {r : Nat} : ∀ {es : List Elem}, c ∈ es → r ∈ tableRefs c → r ∈ tableRefsL es
  | e :: es, hc, h => by
    rw [tableRefsL, List.mem_append]
    rcases List.mem_cons.1 hc with rfl | hc
    · exact .inl h
    · exact .inr (refs_child hc h)

theorem refs_of_tableIn {b b' : Bool} {e : Elem} {r : Nat} (h : TableIn b e b' r) : r ∈ tableRefs e := by
  induction h with
  | here => rw [tableRefs]; simp
  | inTable hc _ ih =>
    rw [tableRefs, List.mem_append]
    exact .inr (refs_child hc ih)
  | inOther _ hc _ ih =>
    rw [tableRefs, List.mem_append]
    exact .inr (refs_child hc ih)

mutual
theorem quiet_flag {K : Heap} (e : Elem) (h : ∀ r ∈ tableRefs e, Has K r) :
    Keeps (· = K) (addFlag1 c!"mtable" innerTable e) fun _ => True := by
  obtain ⟨n, v, d, cs⟩ := e
  rw [tableRefs] at h
  rw [addFlag1]
  have hcs := quiet_flags cs fun r hr => h r (List.mem_append_right _ hr)
  by_cases hn : n = c!"mtable"
  · subst hn
    simp only [BEq.rfl, if_true]
    refine .bind (Q := fun _ => True) ⟨fun H hH => ?_, fun _ _ _ => trivial⟩ fun _ _ => hcs
    subst hH
    exact (h d (by simp)).stay
  · have : (n == c!"mtable") = false := by simpa using hn
    simp only [this, Bool.false_eq_true, if_false]
    exact Keeps.bind (x := (pure () : M PUnit)) (f := fun _ => addFlagRecursiveIfName c!"mtable" innerTable cs)
      (Q := fun _ => True) (.ok trivial) fun _ _ => hcs
theorem quiet_flags {K : Heap} (es : List Elem) (h : ∀ r ∈ tableRefsL es, Has K r) :
    Keeps (· = K) (addFlagRecursiveIfName c!"mtable" innerTable es) fun _ => True := by
  match es with
  | [] => rw [addFlagRecursiveIfName]; exact .ok trivial
  | e :: es =>
    rw [tableRefsL] at h
    rw [addFlagRecursiveIfName]
    exact .bind (quiet_flag e fun r hr => h r (List.mem_append_left _ hr)) fun _ _ =>
      quiet_flags es fun r hr => h r (List.mem_append_right _ hr)
end

mutual
/-- If all tables inside tables have the mark, nothing is changed. -/
theorem quiet_toConv {K : Heap} (e : Elem) (h : ∀ r, TableIn false e true r → Has K r) :
    Keeps (· = K) (toConv e) fun k => Keeps (· = K) k fun _ => True := by
  obtain ⟨n, v, d, cs⟩ := e
  rw [toConv]
  refine keeps_construct (quiet_kids cs fun c hc r hr => h r ?_) fun hm => quiet_flags cs fun r hr => h r ?_
  · by_cases hn : n = c!"mtable"
    · subst hn
      exact .inTable hc (hr.inner rfl)
    · exact .inOther hn hc hr
  · have hn := (classify_mtable n).1 hm
    subst hn
    obtain ⟨c, hc, hr⟩ := tableIn_of_refsL cs hr
    exact .inTable hc hr
theorem quiet_kids {K : Heap} (es : List Elem) (h : ∀ c ∈ es, ∀ r, TableIn false c true r → Has K r) :
    KidsKeep (· = K) (kidsOf es) := by
  match es with
  | [] => simp [kidsOf, KidsKeep]
  | e :: es =>
    intro k hk
    rw [kidsOf] at hk
    rcases List.mem_cons.1 hk with rfl | hk
    · exact Keeps.bind (quiet_toConv e (h e List.mem_cons_self)) fun _ h => h
    · exact quiet_kids es (fun c hc => h c (List.mem_cons_of_mem _ hc)) k hk
end

mutual
theorem flag_marks (e : Elem) (H : Heap) : ∀ r ∈ tableRefs e, Has (addFlag1 c!"mtable" innerTable e H).2 r := by
  obtain ⟨n, v, d, cs⟩ := e
  intro r hr
  rw [tableRefs, List.mem_append] at hr
  rw [addFlag1]
  by_cases hn : n = c!"mtable"
  · subst hn
    show Has (addFlagRecursiveIfName c!"mtable" innerTable cs (H.setItem d innerTable innerTable)).2 r
    rcases hr with hr | hr
    · rw [if_pos rfl, List.mem_singleton] at hr
      subst hr
      refine Has.marks ?_ ((again_flags cs).marks _)
      unfold Has Heap.setItem
      simp only [if_true]
      exact Dict.set_set _ _ _
    · exact flags_mark cs _ r hr
  · have he : (n == c!"mtable") = false := by simpa using hn
    rw [if_neg hn] at hr
    rcases hr with hr | hr
    · cases hr
    · simp only [he]
      exact flags_mark cs _ r hr
theorem flags_mark (es : List Elem) (H : Heap) : ∀ r ∈ tableRefsL es, Has (addFlagRecursiveIfName c!"mtable" innerTable es H).2 r := by
  match es with
  | [] => intro r hr; rw [tableRefsL] at hr; cases hr
  | e :: es =>
    intro r hr
    rw [tableRefsL, List.mem_append] at hr
    rw [addFlagRecursiveIfName, run_bind]
    have hok : (addFlag1 c!"mtable" innerTable e H).1 = .ok () := flag_ok e H
    rw [hok]
    rcases hr with hr | hr
    · exact (flag_marks e H r hr).marks ((again_flags es).marks _)
    · exact flags_mark es _ r hr
theorem flag_ok (e : Elem) (H : Heap) : (addFlag1 c!"mtable" innerTable e H).1 = .ok () := by
  obtain ⟨n, v, d, cs⟩ := e
  rw [addFlag1]
  by_cases hn : (n == c!"mtable") = true
  · simp only [hn]
    exact flags_ok cs _
  · simp only [hn]
    exact flags_ok cs _
theorem flags_ok (es : List Elem) (H : Heap) : (addFlagRecursiveIfName c!"mtable" innerTable es H).1 = .ok () := by
  match es with
  | [] => rw [addFlagRecursiveIfName]; rfl
  | e :: es =>
    rw [addFlagRecursiveIfName, run_bind, flag_ok e H]
    exact flags_ok es _
end

/-- Once a converter has been created for a table, all tables in it have the mark. -/
theorem table_marked {v : Str} {d : Nat} {cs : List Elem} {H H' : Heap} {k : M Str} (h : toConv (.mk c!"mtable" v d cs) H = (.ok k, H'))
    {r : Nat} (hr : TableIn false (.mk c!"mtable" v d cs) true r) : Has H' r := by
  have hcl : classify c!"mtable" = .mtable := (classify_mtable _).2 rfl
  rw [toConv, hcl] at h
  have h2 : H' = (addFlagRecursiveIfName c!"mtable" innerTable cs H).2 := by
    have e : H' = (construct .mtable c!"mtable" v d cs (kidsOf cs) H).2 := (congrArg Prod.snd h).symm
    rw [e]
    unfold construct
    dsimp only
    rw [run_bind, flags_ok]
    rfl
  rw [h2]
  refine flags_mark cs H r ?_
  cases hr with
  | inTable hc hr => exact refs_child hc (refs_of_tableIn hr)
  | inOther hn _ _ => exact absurd rfl hn

end Verif
