import Verif.Refine.Rely

/-! # Conversions of any part of a tree keep to the discipline -/

namespace Verif
open Spec

/-- The program keeps to the discipline, only adds marks, and what it returns satisfies `P`. -/
def GSafe {α : Type} (W : World) (p : Prog α) (P : α → Prop) : Prop :=
  ∀ F, wp p (fun W' r => (∃ F', (∀ x, F x → F' x) ∧ W' = W.withF F') ∧ ∀ a, r = .ok a → P a)
    (W.withF F)

namespace GSafe
variable {α β : Type} {W : World}

theorem ok {P : α → Prop} {a : α} (h : P a) : GSafe W (pure a : Prog α) P :=
  fun F => ⟨⟨F, fun _ h => h, rfl⟩, fun b hb => by cases hb; exact h⟩

theorem err {P : α → Prop} (e : Exc) : GSafe W (.throw e : Prog α) P :=
  fun F => ⟨⟨F, fun _ h => h, rfl⟩, fun b hb => by cases hb⟩

theorem bind {x : Prog α} {f : α → Prog β} {Q : α → Prop} {P : β → Prop} (hx : GSafe W x Q)
    (hf : ∀ a, Q a → GSafe W (f a) P) : GSafe W (x >>= f) P := by
  intro F
  refine wp.bind ((hx F).mono fun W' r h => ?_)
  obtain ⟨⟨F', h1, rfl⟩, h2⟩ := h
  cases r with
  | error e => exact ⟨⟨F', h1, rfl⟩, fun b hb => by cases hb⟩
  | ok a =>
    refine (hf a (h2 a rfl) F').mono fun W' r h => ?_
    obtain ⟨⟨F2, h3, h4⟩, h5⟩ := h
    exact ⟨⟨F2, fun x hx => h3 x (h1 x hx), h4⟩, h5⟩

theorem attrs {r : Nat} (hd : W.dom r) : GSafe W (Th.attributes r) (fun _ => True) :=
  fun F => ⟨hd, fun _ _ _ => ⟨⟨F, fun _ h => h, rfl⟩, fun _ _ => trivial⟩⟩

end GSafe

/-- Programs of children that keep to the discipline. -/
def GKidsSafe (W : World) (kids : List Th.Kid) : Prop := ∀ k ∈ kids, GSafe W k.2 fun _ => True

theorem gsafe_runKids {W : World} : ∀ {kids : List Th.Kid}, GKidsSafe W kids →
    GSafe W (Th.runKids kids) fun _ => True
  | [], _ => GSafe.ok trivial
  | k :: _, h => GSafe.bind (h k List.mem_cons_self) fun _ _ =>
      GSafe.bind (gsafe_runKids fun k' hk => h k' (List.mem_cons_of_mem _ hk)) fun _ _ =>
        GSafe.ok trivial

theorem gsafe_base {W : World} {k : Th.Kid} (h : GSafe W k.2 fun _ => True) :
    GSafe W (Th.handleBaseChild k) fun _ => True := by
  refine GSafe.bind h fun _ _ => ?_
  split <;> exact GSafe.ok trivial

theorem gsafe_script {W : World} {k : Th.Kid} (h : GSafe W k.2 fun _ => True) :
    GSafe W (Th.handleScriptChild k) fun _ => True := GSafe.bind h fun _ _ => GSafe.ok trivial

theorem gsafe_pair {W : World} (p : Str) {k k' : Th.Kid} (h : GSafe W k.2 fun _ => True)
    (h' : GSafe W k'.2 fun _ => True) : GSafe W (Th.scriptPair p k k') fun _ => True :=
  GSafe.bind h fun _ _ => GSafe.bind h' fun _ _ => GSafe.ok trivial

theorem gsafe_mi {W : World} {r : Nat} (value : Str) (hd : W.dom r) :
    GSafe W (Th.miConvert value r) fun _ => True := by
  unfold Th.miConvert
  dsimp only
  split
  · exact GSafe.ok trivial
  · split
    · exact GSafe.ok trivial
    · refine GSafe.bind (Q := fun _ => True) ?_ fun _ _ => GSafe.ok trivial
      unfold Th.getMathVariant
      refine GSafe.bind (GSafe.attrs hd) fun a _ => ?_
      split
      · exact GSafe.ok trivial
      · refine GSafe.bind (GSafe.attrs hd) fun a _ => ?_
        split
        · exact GSafe.ok trivial
        · refine GSafe.bind (GSafe.attrs hd) fun a _ => ?_
          split
          · exact GSafe.ok trivial
          · exact GSafe.err _

theorem gsafe_mtext {W : World} {r : Nat} (value : Str) (hd : W.dom r) :
    GSafe W (Th.mtextConvert value r) fun _ => True := by
  have : ∀ ps, GSafe W (Th.mtextRuns r ps) fun _ => True := by
    intro ps
    induction ps with
    | nil => exact GSafe.ok trivial
    | cons p ps ih =>
      rw [Th.mtextRuns]
      refine GSafe.bind (Q := fun _ => True) ?_ fun _ _ => GSafe.bind ih fun _ _ => GSafe.ok trivial
      unfold Th.mtextRun
      split
      · exact GSafe.bind (GSafe.attrs hd) fun _ _ => GSafe.ok trivial
      · exact GSafe.ok trivial
  exact GSafe.bind (this _) fun _ _ => GSafe.ok trivial

theorem gsafe_construct {W : World} {kind : Kind} {name value : Str} {aref : Nat}
    {cs : List Elem} {kids : List Th.Kid} (hd : W.dom aref) (hk : GKidsSafe W kids)
    (hf : kind = .mtable → GSafe W (Th.addFlagRecursiveIfName c!"mtable" innerTable cs) fun _ => True) :
    GSafe W (Th.construct kind name value aref cs kids) fun k => GSafe W k fun _ => True := by
  have hr := gsafe_runKids hk
  cases kind with
  | math => exact GSafe.ok (GSafe.bind hr fun _ _ => GSafe.ok trivial)
  | mi => exact GSafe.ok (gsafe_mi value hd)
  | mo => exact GSafe.ok (GSafe.ok trivial)
  | mn => exact GSafe.ok (GSafe.ok trivial)
  | msqrt => exact GSafe.ok (GSafe.bind hr fun _ _ => GSafe.ok trivial)
  | mfenced =>
    refine GSafe.bind (GSafe.attrs hd) fun _ _ => GSafe.bind (GSafe.attrs hd) fun _ _ =>
      GSafe.bind (GSafe.attrs hd) fun _ _ => GSafe.ok (GSafe.bind hr fun _ _ => ?_)
    split <;> exact GSafe.ok trivial
  | mfrac =>
    refine GSafe.ok ?_
    unfold Th.mfracConvert
    split
    · refine GSafe.bind (hk _ (by simp)) fun _ _ => GSafe.bind (hk _ (by simp)) fun _ _ =>
        GSafe.bind (GSafe.attrs hd) fun _ _ => ?_
      split <;> exact GSafe.ok trivial
    · exact GSafe.err _
  | mroot =>
    refine GSafe.ok ?_
    unfold Th.mrootConvert
    split
    · exact GSafe.bind (hk _ (by simp)) fun _ _ => GSafe.bind (hk _ (by simp)) fun _ _ =>
        GSafe.ok trivial
    · exact GSafe.err _
  | maction =>
    refine GSafe.ok ?_
    unfold Th.mactionConvert
    refine GSafe.bind (GSafe.attrs hd) fun _ _ => ?_
    simp only
    split
    · exact GSafe.bind hr fun _ _ => GSafe.ok trivial
    · split
      · exact GSafe.err _
      · exact hk _ (by simp)
  | menclose =>
    exact GSafe.bind (GSafe.attrs hd) fun _ _ => GSafe.ok (GSafe.bind hr fun _ _ => GSafe.ok trivial)
  | merror => exact GSafe.ok (GSafe.bind hr fun _ _ => GSafe.ok trivial)
  | void => exact GSafe.ok (GSafe.ok trivial)
  | msup =>
    refine GSafe.ok ?_
    unfold Th.msupConvert
    split
    · exact GSafe.bind (gsafe_base (hk _ (by simp))) fun _ _ =>
        GSafe.bind (gsafe_script (hk _ (by simp))) fun _ _ => GSafe.ok trivial
    · exact GSafe.err _
  | msub =>
    refine GSafe.ok ?_
    unfold Th.msubConvert
    split
    · exact GSafe.bind (gsafe_base (hk _ (by simp))) fun _ _ =>
        GSafe.bind (gsafe_script (hk _ (by simp))) fun _ _ => GSafe.ok trivial
    · exact GSafe.err _
  | msubsup =>
    refine GSafe.ok ?_
    unfold Th.msubsupConvert
    split
    · exact GSafe.bind (gsafe_base (hk _ (by simp))) fun _ _ =>
        GSafe.bind (gsafe_script (hk _ (by simp))) fun _ _ =>
        GSafe.bind (gsafe_script (hk _ (by simp))) fun _ _ => GSafe.ok trivial
    · exact GSafe.err _
  | mmultiscripts =>
    refine GSafe.ok ?_
    have h1 : GSafe W (Th.prescriptLatex kids) fun _ => True := by
      unfold Th.prescriptLatex
      split
      · split
        · exact gsafe_pair _ (hk _ (by simp)) (hk _ (by simp))
        · split
          · split
            · exact gsafe_pair _ (hk _ (by simp)) (hk _ (by simp))
            · exact GSafe.ok trivial
          · exact GSafe.ok trivial
      · exact GSafe.ok trivial
    have h2 : GSafe W (Th.postscriptLatex kids) fun _ => True := by
      unfold Th.postscriptLatex
      split
      · split
        · exact GSafe.ok trivial
        · exact gsafe_pair _ (hk _ (by simp)) (hk _ (by simp))
      · exact GSafe.ok trivial
    unfold Th.mmultiscriptsConvert
    split
    · exact GSafe.bind (hk _ (by simp)) fun _ _ => GSafe.bind h1 fun _ _ => GSafe.bind h2 fun _ _ =>
        GSafe.ok trivial
    · exact GSafe.err _
  | mtext => exact GSafe.ok (gsafe_mtext value hd)
  | munderover =>
    refine GSafe.ok ?_
    unfold Th.munderoverConvert
    split
    · exact GSafe.bind (hk _ (by simp)) fun _ _ => GSafe.bind (hk _ (by simp)) fun _ _ =>
        GSafe.bind (hk _ (by simp)) fun _ _ => GSafe.ok trivial
    · exact GSafe.err _
  | mtable =>
    refine GSafe.bind (hf rfl) fun _ _ => GSafe.ok ?_
    refine GSafe.bind hr fun _ _ => GSafe.bind (GSafe.attrs hd) fun _ _ => ?_
    split <;> exact GSafe.ok trivial
  | mtr => exact GSafe.ok (GSafe.bind hr fun _ _ => GSafe.ok trivial)
  | underOver =>
    refine GSafe.ok ?_
    unfold Th.underOverConvert
    split
    · exact GSafe.bind (hk _ (by simp)) fun _ _ => GSafe.bind (hk _ (by simp)) fun _ _ =>
        GSafe.ok trivial
    · exact GSafe.err _
  | spacing => exact GSafe.ok (GSafe.bind hr fun _ _ => GSafe.ok trivial)


theorem gsafe_addFlags {W : World} {cs : List Elem} (hd : ∀ r ∈ tableRefsL cs, W.dom r)
    (h : ∀ r ∈ tableRefsL cs, W.S r) :
    GSafe W (Th.addFlagRecursiveIfName c!"mtable" innerTable cs) fun _ => True := fun F =>
  (addFlags_wp (W := W) cs F hd h).mono fun _ _ h => by
    obtain ⟨_, F', h1, _, h2⟩ := h
    exact ⟨⟨F', h1, h2⟩, fun _ _ => trivial⟩

mutual
theorem gsafe_toConv {W : World} (e : Elem) (b : Bool) (hd : RefsP W.dom e) (hw : WfE W.S b e) :
    GSafe W (Th.toConv e) fun k => GSafe W k fun _ => True := by
  obtain ⟨n, v, r, cs⟩ := e
  rw [WfE] at hw
  rw [RefsP] at hd
  rw [Th.toConv]
  refine gsafe_construct hd.1 (gsafe_kidsOf cs _ hd.2 hw.2) fun hm => ?_
  have hn := (classify_mtable n).1 hm
  have h2 := hw.2
  rw [hn] at h2
  simp only [BEq.rfl, Bool.or_true] at h2
  exact gsafe_addFlags (RefsPL.tables cs hd.2) (tableRefsL_sub cs (WfEs.toT cs _ h2))
theorem gsafe_kidsOf {W : World} (es : List Elem) (b : Bool) (hd : RefsPL W.dom es)
    (hw : WfEs W.S b es) : GKidsSafe W (Th.kidsOf es) := by
  match es with
  | [] => simp [Th.kidsOf, GKidsSafe]
  | e :: es =>
    rw [WfEs] at hw
    rw [RefsPL] at hd
    intro k hk
    rw [Th.kidsOf] at hk
    rcases List.mem_cons.1 hk with rfl | hk
    · exact GSafe.bind (gsafe_toConv e b hd.1 hw.1) fun _ h => h
    · exact gsafe_kidsOf es b hd.2 hw.2 k hk
end

theorem gsafe_convertElem {W : World} (e : Elem) (b : Bool) (hd : RefsP W.dom e)
    (hw : WfE W.S b e) : GSafe W (Th.convertElem e) fun _ => True :=
  GSafe.bind (gsafe_toConv e b hd hw) fun _ h => h

theorem RefsPL.mem {P : Nat → Prop} : ∀ {es : List Elem} {e : Elem}, RefsPL P es →
    e ∈ es → RefsP P e
  | [], _, _, h => by cases h
  | e' :: es, e, hw, h => by
    rw [RefsPL] at hw
    rcases List.mem_cons.1 h with rfl | h
    · exact hw.1
    · exact RefsPL.mem hw.2 h

theorem Spec.Within.refs {P : Nat → Prop} {e root : Elem} (h : Within e root) :
    RefsP P root → RefsP P e := by
  induction h with
  | self => exact id
  | @child r c e' hc _ ih =>
    intro hb
    obtain ⟨n, v, r, cs⟩ := r
    rw [RefsP] at hb
    exact ih (RefsPL.mem hb.2 hc)

/-! ## Calls of the API -/

theorem Th.toConv_math (v : Str) (r : Nat) (cs : List Elem) :
    Th.toConv (.mk c!"math" v r cs) = pure (Th.mathConvert (Th.kidsOf cs)) := by
  rw [Th.toConv]
  have : classify c!"math" = .math := by decide
  rw [this]; rfl

theorem Th.convertElem_math (v : Str) (r : Nat) (cs : List Elem) :
    Th.convertElem (.mk c!"math" v r cs) = Th.mathConvert (Th.kidsOf cs) := by
  unfold Th.convertElem
  rw [Th.toConv_math]; rfl

theorem Th.constructAll_math (es : List Elem) (h : ∀ e ∈ es, e.name = c!"math") :
    Th.constructAll es = pure (es.map fun e => Th.mathConvert (Th.kidsOf e.children)) := by
  induction es with
  | nil => rfl
  | cons e es ih =>
    obtain ⟨n, v, r, cs⟩ := e
    have hn : n = c!"math" := h _ List.mem_cons_self
    subst hn
    rw [Th.constructAll, Th.toConv_math, ih fun e he => h e (List.mem_cons_of_mem _ he)]
    rfl

theorem gconvertAll_sim {W : World} (es : List Elem) (h : ∀ e ∈ es, e.name = c!"math")
    (hd : RefsPL W.dom es) (hw : WfEs W.S false es) :
    GSim W (fun _ => False) (Th.convertAll (es.map fun e => Th.mathConvert (Th.kidsOf e.children)))
      (pconvAll (views W.c0 es)) := by
  induction es with
  | nil => exact GSim.ok _
  | cons e es ih =>
    rw [WfEs] at hw
    rw [RefsPL] at hd
    have h1 := gconvertElem_sim (W := W) e (fun _ => False) false hd.1 hw.1 (by simp)
    obtain ⟨n, v, r, cs⟩ := e
    have hn : n = c!"math" := h _ List.mem_cons_self
    subst hn
    rw [Th.convertElem_math] at h1
    simp only [List.map_cons, Th.convertAll, views, pconvAll]
    exact GSim.bind h1 fun a => GSim.bind
      (ih (fun e he => h e (List.mem_cons_of_mem _ he)) hd.2 hw.2) fun b => GSim.ok _

theorem toPElems_math (ns : List Node) (h : ∀ m ∈ ns, ∃ a cs, m = .elem c!"math" a cs) :
    ∀ p ∈ toPElems ns, p.name = c!"math" := by
  induction ns with
  | nil => simp [toPElems]
  | cons n ns ih =>
    obtain ⟨a, cs, rfl⟩ := h n List.mem_cons_self
    intro p hp
    simp only [toPElems, toPElem, List.mem_cons] at hp
    rcases hp with rfl | hp
    · rfl
    · exact ih (fun m hm => h m (List.mem_cons_of_mem _ hm)) p hp

theorem view_mem {c0 : Nat → Attrs} {es : List Elem} {e : Elem} (h : e ∈ es) :
    view c0 e ∈ views c0 es := by
  induction es with
  | nil => cases h
  | cons e' es ih =>
    rw [views]
    rcases List.mem_cons.1 h with rfl | h
    · exact List.mem_cons_self
    · exact List.mem_cons_of_mem _ (ih h)

theorem renderNodes_wp (d : Doc) (W : World) :
    wp (Th.renderNodes (mathElements d)) (fun _ r => r = renderDoc d) W := by
  refine wp.bind ((buildElems_wp (mathElements d) W false).mono fun W' r h => ?_)
  obtain ⟨_, es, rfl, h1, h2, h3⟩ := h
  have hnames : ∀ e ∈ es, e.name = c!"math" := by
    intro e he
    rw [← view_name W'.c0]
    refine toPElems_math _ (mathElements_name d) _ ?_
    rw [h1]
    exact view_mem he
  have hs : GSim W' (fun _ => False) (Th.renderAll es) (renderDoc d) := by
    unfold Th.renderAll renderDoc
    rw [Th.constructAll_math es hnames, h1]
    exact GSim.bind (gconvertAll_sim es hnames h2 h3) fun _ => GSim.ok _
  exact (hs W'.F fun _ h => h.elim).mono fun _ _ h => h.1

end Verif
