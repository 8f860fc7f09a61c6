import Verif.Model.Threads
import Verif.Refine.Repeat

/-! # Running a program without interruption is the action of the sequential model -/

namespace Verif
namespace Prog
variable {α β : Type}

theorem pure_eq (a : α) : (Pure.pure a : Prog α) = .pure a := rfl
theorem bind_eq (p : Prog α) (f : α → Prog β) : (p >>= f) = p.bind f := rfl

theorem run_pure (a : α) : (Pure.pure a : Prog α).run = Pure.pure a := rfl

theorem run_throw (e : Exc) : (Prog.throw e : Prog α).run = MonadExcept.throw e := rfl

theorem M_ext {x y : M α} (h : ∀ s, x s = y s) : x = y := funext h

theorem run_bind (p : Prog α) (f : α → Prog β) :
    (p >>= f).run = p.run >>= fun a => (f a).run := by
  rw [bind_eq]
  induction p with
  | pure a => exact M_ext fun s => rfl
  | throw e => exact M_ext fun s => rfl
  | alloc a k ih => 
    refine M_ext fun s => ?_
    simp only [Prog.bind, run, ih, Verif.run_bind]
    rfl
  | read r k ih =>
    refine M_ext fun s => ?_
    simp only [Prog.bind, run, ih, Verif.run_bind]
    rfl
  | setItem r key v p ih =>
    refine M_ext fun s => ?_
    simp only [Prog.bind, run, ih, Verif.run_bind]
    rfl

theorem run_attributes (r : Nat) : (Th.attributes r).run = attributes r :=
  M_ext fun _ => rfl

theorem run_ite {c : Prop} [Decidable c] (p q : Prog α) :
    (if c then p else q).run = if c then p.run else q.run := by split <;> rfl

end Prog

namespace Th
open Prog

/-- A child, run without interruption. -/
def Kid.run (k : Kid) : Verif.Kid := (k.1, k.2.run)

theorem run_runKids (ks : List Kid) : (runKids ks).run = Verif.runKids (ks.map Kid.run) := by
  induction ks with
  | nil => rfl
  | cons k ks ih =>
    simp only [runKids, Prog.run_bind, ih, List.map_cons, Verif.runKids, run_pure]
    rfl

theorem kids_fst (ks : List Kid) : (ks.map Kid.run).map (·.1) = ks.map (·.1) := by
  rw [List.map_map]; rfl

theorem run_base (k : Kid) : (handleBaseChild k).run = Verif.handleBaseChild k.run := by
  simp only [handleBaseChild, Verif.handleBaseChild, Prog.run_bind, run_ite, run_pure]
  rfl

theorem run_script (k : Kid) : (handleScriptChild k).run = Verif.handleScriptChild k.run := by
  simp only [handleScriptChild, Verif.handleScriptChild, Prog.run_bind, run_pure]
  rfl

theorem run_pair (p : Str) (k k' : Kid) :
    (scriptPair p k k').run = Verif.scriptPair p k.run k'.run := by
  simp only [scriptPair, Verif.scriptPair, Prog.run_bind, run_pure]
  rfl

theorem run_pre (ks : List Kid) :
    (prescriptLatex ks).run = Verif.prescriptLatex (ks.map Kid.run) := by
  rcases ks with _ | ⟨k0, _ | ⟨k1, _ | ⟨k2, _ | ⟨k3, _ | ⟨k4, _ | ⟨k5, ks⟩⟩⟩⟩⟩⟩ <;>
    simp only [prescriptLatex, Verif.prescriptLatex, List.map_cons, List.map_nil, run_ite,
      run_pair, run_pure] <;> rfl

theorem run_post (ks : List Kid) :
    (postscriptLatex ks).run = Verif.postscriptLatex (ks.map Kid.run) := by
  rcases ks with _ | ⟨k0, _ | ⟨k1, _ | ⟨k2, ks⟩⟩⟩ <;>
    simp only [postscriptLatex, Verif.postscriptLatex, List.map_cons, List.map_nil, run_ite,
      run_pair, run_pure] <;> rfl

mutual
theorem run_addFlag1 (name flag : Str) (e : Elem) :
    (addFlag1 name flag e).run = Verif.addFlag1 name flag e := by
  obtain ⟨n, v, r, cs⟩ := e
  rw [addFlag1, Verif.addFlag1]
  have ih := run_addFlags name flag cs
  by_cases h : (n == name) = true
  · rw [if_pos h, if_pos h, Prog.run_bind]; simp only [ih]; exact M_ext fun _ => rfl
  · rw [if_neg h, if_neg h]; exact ih
theorem run_addFlags (name flag : Str) (es : List Elem) :
    (addFlagRecursiveIfName name flag es).run = Verif.addFlagRecursiveIfName name flag es := by
  match es with
  | [] => rw [addFlagRecursiveIfName, Verif.addFlagRecursiveIfName]; rfl
  | e :: es =>
    rw [addFlagRecursiveIfName, Verif.addFlagRecursiveIfName, Prog.run_bind,
      run_addFlag1 name flag e]
    simp only [run_addFlags name flag es]
end

theorem run_mi (value : Str) (aref : Nat) (h : Heap) :
    (miConvert value aref).run h = (.ok (Verif.miConvert value (h.cells aref)), h) := by
  unfold miConvert Verif.miConvert
  dsimp only
  split
  · rfl
  · split
    · rfl
    · have : (getMathVariant aref).run h = (.ok (Verif.getMathVariant (h.cells aref)), h) := by
        unfold getMathVariant Verif.getMathVariant Attrs.getD
        simp only [Prog.run_bind, run_ite, run_attributes, run_pure]
        show (if h.cells aref = [] then _ else _ : M Str) h = _
        split
        · rename_i e; rw [e]; rfl
        · show (if Dict.get? (h.cells aref) c!"mathvariant" = none then _ else _ : M Str) h = _
          split
          · rename_i e; rw [e]; rfl
          · rename_i e
            cases e' : Dict.get? (h.cells aref) c!"mathvariant" with
            | none => exact absurd e' e
            | some v =>
              show (match Dict.get? (h.cells aref) c!"mathvariant" with
                | some v => (return v : Prog Str)
                | none => .throw .keyError).run h = _
              rw [e']
              rfl
      simp only [Prog.run_bind, run_pure]
      rw [Verif.run_bind, this]
      rfl

theorem run_mtext (value : Str) (aref : Nat) (h : Heap) :
    (mtextConvert value aref).run h = (.ok (Verif.mtextConvert value (h.cells aref)), h) := by
  have hr : ∀ p, (mtextRun aref p).run h = (.ok (if p.2 then
      textCommandApply (Attrs.getD (h.cells aref) c!"mathvariant" []) p.1
      else Verif.miConvert p.1 []), h) := by
    intro p
    unfold mtextRun
    split <;> rfl
  have : ∀ ps, (mtextRuns aref ps).run h = (.ok (ps.map fun p =>
      if p.2 then textCommandApply (Attrs.getD (h.cells aref) c!"mathvariant" []) p.1
      else Verif.miConvert p.1 []), h) := by
    intro ps
    induction ps with
    | nil => rfl
    | cons p ps ih =>
      rw [mtextRuns, Prog.run_bind, Verif.run_bind, hr]
      dsimp only
      rw [Prog.run_bind, Verif.run_bind, ih]
      rfl
  unfold mtextConvert Verif.mtextConvert
  dsimp only
  rw [Prog.run_bind, Verif.run_bind, this]
  rfl

/-- Constructing a converter, run without interruption. -/
def runs {α : Type} (p : Prog (Prog α)) : M (M α) := p.run >>= fun k => pure k.run

theorem run_construct (kind : Kind) (name value : Str) (aref : Nat) (cs : List Elem)
    (kids : List Kid) :
    runs (construct kind name value aref cs kids) =
      Verif.construct kind name value aref cs (kids.map Kid.run) := by
  unfold runs
  cases kind with
  | math => simp only [construct, Verif.construct, mathConvert, Verif.mathConvert, run_pure, pure_bind, Prog.run_bind, run_runKids]
  | mi => exact congrArg (pure : M Str → M (M Str)) (M_ext fun h => run_mi value aref h)
  | mo => rfl
  | mn => rfl
  | msqrt => simp only [construct, Verif.construct, msqrtConvert, Verif.msqrtConvert, run_pure, pure_bind, Prog.run_bind, run_runKids]
  | mfenced =>
    refine M_ext fun s => ?_
    show (Except.ok (mfencedConvert _ _ _ kids).run, s) = (Except.ok (Verif.mfencedConvert _ _ _ _), s)
    simp only [mfencedConvert, Verif.mfencedConvert, Prog.run_bind, run_runKids, run_ite, run_pure, kids_fst]
  | mfrac =>
    rcases kids with _ | ⟨k0, _ | ⟨k1, _ | ⟨k2, ks⟩⟩⟩ <;>
      simp only [construct, Verif.construct, mfracConvert, Verif.mfracConvert, List.map_cons,
        List.map_nil, run_pure, pure_bind, Prog.run_bind, run_attributes, run_ite, run_throw,
        List.length_cons, List.length_map, List.length_nil] <;> rfl
  | mroot =>
    rcases kids with _ | ⟨k0, _ | ⟨k1, _ | ⟨k2, ks⟩⟩⟩ <;>
      simp only [construct, Verif.construct, mrootConvert, Verif.mrootConvert, List.map_cons,
        List.map_nil, run_pure, pure_bind, Prog.run_bind, run_throw,
        List.length_cons, List.length_map, List.length_nil] <;> rfl
  | maction =>
    rcases kids with _ | ⟨k0, ks⟩ <;>
      simp only [construct, Verif.construct, mactionConvert, Verif.mactionConvert, List.map_cons,
        List.map_nil, run_pure, pure_bind, Prog.run_bind, run_attributes, run_ite, run_throw,
        run_runKids] <;> rfl
  | menclose =>
    refine M_ext fun s => ?_
    show (Except.ok (mencloseConvert _ kids).run, s) = (Except.ok (Verif.mencloseConvert _ _), s)
    simp only [mencloseConvert, Verif.mencloseConvert, Prog.run_bind, run_runKids, run_pure]
  | merror => simp only [construct, Verif.construct, merrorConvert, Verif.merrorConvert, run_pure, pure_bind, Prog.run_bind, run_runKids]
  | void => rfl
  | msup =>
    rcases kids with _ | ⟨k0, _ | ⟨k1, _ | ⟨k2, ks⟩⟩⟩ <;>
      simp only [construct, Verif.construct, msupConvert, Verif.msupConvert, List.map_cons,
        List.map_nil, run_pure, pure_bind, Prog.run_bind, run_base, run_script, run_throw,
        List.length_cons, List.length_map, List.length_nil]
  | msub =>
    rcases kids with _ | ⟨k0, _ | ⟨k1, _ | ⟨k2, ks⟩⟩⟩ <;>
      simp only [construct, Verif.construct, msubConvert, Verif.msubConvert, List.map_cons,
        List.map_nil, run_pure, pure_bind, Prog.run_bind, run_base, run_script, run_throw,
        List.length_cons, List.length_map, List.length_nil]
  | msubsup =>
    rcases kids with _ | ⟨k0, _ | ⟨k1, _ | ⟨k2, _ | ⟨k3, ks⟩⟩⟩⟩ <;>
      simp only [construct, Verif.construct, msubsupConvert, Verif.msubsupConvert, List.map_cons,
        List.map_nil, run_pure, pure_bind, Prog.run_bind, run_base, run_script, run_throw,
        List.length_cons, List.length_map, List.length_nil]
  | mmultiscripts =>
    rcases kids with _ | ⟨k0, _ | ⟨k1, _ | ⟨k2, ks⟩⟩⟩ <;>
      simp only [construct, Verif.construct, mmultiscriptsConvert, Verif.mmultiscriptsConvert,
        run_pre, run_post, List.map_cons,
        List.map_nil, run_pure, pure_bind, Prog.run_bind, run_throw,
        List.length_cons, List.length_nil] <;> rfl
  | mtext => exact congrArg (pure : M Str → M (M Str)) (M_ext fun h => run_mtext value aref h)
  | munderover =>
    rcases kids with _ | ⟨k0, _ | ⟨k1, _ | ⟨k2, _ | ⟨k3, ks⟩⟩⟩⟩ <;>
      simp only [construct, Verif.construct, munderoverConvert, Verif.munderoverConvert,
        List.map_cons,
        List.map_nil, run_pure, pure_bind, Prog.run_bind, run_throw,
        List.length_cons, List.length_map, List.length_nil] <;> rfl
  | mtable =>
    simp only [construct, Verif.construct, mtableConvert, Verif.mtableConvert, run_pure, pure_bind,
      Prog.run_bind, run_runKids, run_addFlags, bind_assoc, run_attributes, run_ite]
  | mtr => simp only [construct, Verif.construct, mtrConvert, Verif.mtrConvert, run_pure, pure_bind, Prog.run_bind, run_runKids]
  | underOver =>
    rcases kids with _ | ⟨k0, _ | ⟨k1, _ | ⟨k2, ks⟩⟩⟩ <;>
      simp only [construct, Verif.construct, underOverConvert, Verif.underOverConvert, List.map_cons,
        List.map_nil, run_pure, pure_bind, Prog.run_bind, run_throw,
        List.length_cons, List.length_map, List.length_nil] <;> rfl
  | spacing => simp only [construct, Verif.construct, spacingConvert, Verif.spacingConvert, run_pure, pure_bind, Prog.run_bind, run_runKids]

theorem runs_join {α : Type} (p : Prog (Prog α)) : (p >>= id).run = (runs p >>= id) := by
  rw [Prog.run_bind, runs, bind_assoc]
  simp only [pure_bind]
  rfl

mutual
/-- `to_latex_converter(e)` without interruption. -/
theorem run_toConv (e : Elem) : runs (toConv e) = Verif.toConv e := by
  obtain ⟨n, v, r, cs⟩ := e
  rw [toConv, Verif.toConv, run_construct, run_kidsOf cs]
theorem run_kidsOf (es : List Elem) : (kidsOf es).map Kid.run = Verif.kidsOf es := by
  match es with
  | [] => simp [kidsOf, Verif.kidsOf]
  | e :: es =>
    rw [kidsOf, Verif.kidsOf, List.map_cons, run_kidsOf es]
    have h : (toConv e >>= id).run = (Verif.toConv e >>= id) := by rw [runs_join, run_toConv e]
    simp only [Kid.run]
    exact congrArg (fun x => (e, x) :: Verif.kidsOf es) h
end

/-- `to_latex_converter(e).convert()` without interruption. -/
theorem run_convertElem (e : Elem) : (convertElem e).run = Verif.convertElem e := by
  show (toConv e >>= id).run = (Verif.toConv e >>= id)
  rw [runs_join, run_toConv e]

mutual
theorem run_buildElem (n : Node) :
    (buildElem n).run = (ExceptT.lift (Verif.buildElem n) : M (Option Elem)) := by
  match n with
  | .text _ => rw [buildElem, Verif.buildElem] <;> first | rfl | simp
  | .cdata _ => rw [buildElem, Verif.buildElem] <;> first | rfl | simp
  | .comment _ => rw [buildElem, Verif.buildElem] <;> first | rfl | simp
  | .pi _ _ => rw [buildElem, Verif.buildElem] <;> first | rfl | simp
  | .elem tag attrs cs =>
    rw [buildElem, Verif.buildElem]
    simp only [Prog.run, Prog.run_bind, run_buildElems cs]
    rfl
theorem run_buildElems (ns : List Node) :
    (buildElems ns).run = (ExceptT.lift (Verif.buildElems ns) : M (List Elem)) := by
  match ns with
  | [] => rw [buildElems, Verif.buildElems]; rfl
  | n :: ns =>
    rw [buildElems, Verif.buildElems]
    simp only [Prog.run_bind, run_buildElem n, run_buildElems ns]
    rfl
end

theorem run_convertAll (ks : List (Prog Str)) :
    (convertAll ks).run = Verif.convertAll (ks.map Prog.run) := by
  induction ks with
  | nil => rfl
  | cons k ks ih =>
    simp only [convertAll, Verif.convertAll, Prog.run_bind, ih, List.map_cons, run_pure]

theorem run_constructAll (es : List Elem) :
    ((constructAll es).run >>= fun ks => pure (ks.map Prog.run)) = Verif.constructAll es := by
  induction es with
  | nil => rfl
  | cons e es ih =>
    rw [Verif.constructAll, ← run_toConv e, ← ih]
    simp only [constructAll, Prog.run_bind, runs, bind_assoc, pure_bind, run_pure, List.map_cons]

theorem run_renderAll (es : List Elem) : (renderAll es).run = Verif.renderAll es := by
  unfold renderAll Verif.renderAll
  rw [← run_constructAll]
  simp only [Prog.run_bind, bind_assoc, pure_bind, run_convertAll, run_pure]

/-- Building elements and rendering them without interruption. -/
theorem run_renderNodes (ns : List Node) : (renderNodes ns).run = Verif.renderNodes ns := by
  unfold renderNodes Verif.renderNodes
  simp only [Prog.run_bind, run_buildElems, run_renderAll]

/-- `MathMLToLaTeX.convert` without interruption, in a fresh memory. -/
theorem run_convert (env : Env) (mathml : Str) :
    ((convert env mathml).run Heap.empty).1 = Verif.convert env mathml := by
  unfold convert Verif.convert
  generalize (Adapter.domElements env Adapter.fresh mathml).1 = r
  cases r with
  | error e => rfl
  | ok nodes => simp only [run_renderNodes]

end Th
end Verif
