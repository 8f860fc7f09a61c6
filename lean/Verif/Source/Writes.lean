import Verif.Source.Gentle

/-!
# The check is sound

A function that passes the check of `Verif.Source.Gentle` changes objects that were there before
in the allowed way only, operation by operation.
-/

set_option linter.unusedSectionVars false

namespace Verif.Src.Writes

section
variable {N : Nat} {C : SCtx}

/-- Calls of functions that pass are gentle. -/
def GentleC (N : Nat) (C : SCtx) : Prop :=
  ∀ f args kw, Ready N f args kw → Gentle N Good (C.call f args kw)

theorem gentle_peek (r : Nat) : Gentle N GoodO (peek r) := .prim fun _ _ hS => calm_of hS fun _ h => hS.get h

theorem mem_one {v : Val} (hv : Good v) : ∀ w ∈ [v], Good w := fun w hw => by
  rw [List.mem_singleton.1 hw]
  exact hv

theorem goodL_nil : GoodL [] := fun _ h => by cases h

theorem gentle_getAttr (hC : GentleC N C) {v : Val} (hv : Good v) (a : Ident) :
    Gentle N (Got v a) (getAttrS C v a) := by
  unfold getAttrS
  split
  · refine Gentle.bind (gentle_peek _) fun o ho => ?_
    cases o with
    | list _ => exact .bmethod
    | dict _ => exact .bmethod
    | inst c fs =>
      simp only
      have hfs : GoodL fs := ho
      split
      · next hm =>
        exact (hC _ _ _ (ready_func (okMethod_plain (findMethod_ok hm) (by decide)).2 (mem_one hv) goodL_nil)).mono
          fun _ h => .good h
      · next hm =>
        split
        · next hl => exact .good (hfs.look hl)
        · exact .method hm
      · next hm => exact .good (by simp only [Good]; exact (okMethod_plain (findMethod_ok hm) (by decide)).1)
      · exact .of fun w hw => .good (hfs.look hw)
  · split
    · next hm => exact .good (by simp only [Good]; exact (okMethod_plain (findMethod_ok hm) (by decide)).1)
    · trivial
    · exact .prim fun _ _ hS => calm_libAttr hS
  · exact .prim fun _ _ hS => calm_libAttr hS

theorem mem_cons_good {v : Val} {args : List Val} (hv : Good v) (ha : ∀ w ∈ args, Good w) : ∀ w ∈ v :: args, Good w := by
  intro w hw
  rcases List.mem_cons.1 hw with h | h
  · rw [h]; exact hv
  · exact ha w h

theorem gentle_apply (hC : GentleC N C) {f : Val} {args : List Val} {kw : List (Ident × Val)} (hf : Good f)
    (ha : ∀ w ∈ args, Good w) (hk : GoodL kw) : Gentle N Good (applyS C f args kw) := by
  unfold applyS
  split
  · refine Gentle.bind (gentle_new (o := .inst _ []) fun _ h => by cases h) fun self hs => ?_
    split
    · next hm =>
      exact Gentle.bind (hC _ _ _ (ready_init (okMethod_init (findMethod_ok hm)) hs.2 ha hk)) fun _ _ => hs.1
    · split
      · exact hs.1
      · trivial
  · split
    · next hl => exact hC _ _ _ (ready_func (func_ok hl) ha hk)
    · trivial
  · simp only [Good] at hf
    split
    · next h => exact (hf.1 (by rw [h.2]; decide)).elim
    · split
      · next hm =>
        obtain ⟨d, hm⟩ := methodIn_ok hm
        exact hC _ _ _ (ready_func (okMethod_func hm hf.1) (mem_cons_good hf.2 ha) hk)
      · trivial
  · simp only [Good] at hf
    split
    · next hm =>
      obtain ⟨d, hm⟩ := methodIn_ok hm
      exact hC _ _ _ (ready_func (okMethod_func hm hf) ha hk)
    · trivial
  · simp only [Good] at hf
    split
    · exact .prim fun _ hn hS => calm_libMethod hn hS (fun e => (hf.1 (by rw [e]; decide)).elim) ha
    · trivial
  · split
    · exact .prim fun _ hn hS => calm_builtin hn hS ha
    · trivial
  · trivial

theorem gentle_applyInit (hC : GentleC N C) {self : Val} {c : Ident} {args : List Val} {kw : List (Ident × Val)}
    (hs : Fresh N self) (ha : ∀ w ∈ args, Good w) (hk : GoodL kw) :
    Gentle N Good (applyS C (.method self c .__init__) args kw) := by
  unfold applyS
  simp only
  split
  · split
    · obtain ⟨r, e, hr⟩ := hs
      cases e
      exact Gentle.bind (.prim fun _ _ hS => calm_putField hS (ha _ (by simp)) (.inl hr)) fun _ _ => by simp [Gentle, Good]
    · trivial
  · split
    · next hm =>
      obtain ⟨d, hm⟩ := methodIn_ok hm
      exact hC _ _ _ (ready_init (okMethod_init hm) hs ha hk)
    · trivial

theorem gentle_applyFlag (hC : GentleC N C) {self : Val} {c : Ident} {a b : Val} (hs : Good self) (ha : Good a) (hb : Good b) :
    Gentle N Good (applyS C (.method self c ._add_flag_recursive_if_name) [a, b, .str mark] []) := by
  unfold applyS
  simp only
  split
  · next h => exact absurd h.2 (by decide)
  · split
    · next hm =>
      obtain ⟨d, hm⟩ := methodIn_ok hm
      exact hC _ _ _ (ready_flag (okMethod_flag hm) hs ha hb)
    · trivial

theorem gentle_applyGot (hC : GentleC N C) {v f : Val} {args : List Val} (hv : Good v) (hf : Got v ._add_flag_recursive_if_name f)
    {a b : Val} (ha : Good a) (hb : Good b) (hargs : args = [a, b, .str mark]) : Gentle N Good (applyS C f args []) := by
  subst hargs
  have hm : Good (.str mark) := by simp [Good]
  cases hf with
  | good h => exact gentle_apply hC h (mem_cons_good ha (mem_cons_good hb (mem_one hm))) goodL_nil
  | method _ => exact gentle_applyFlag hC hv ha hb
  | bmethod =>
    unfold applyS
    exact .prim fun _ hn hS => calm_libMethod hn hS (fun e => by cases e) (mem_cons_good ha (mem_cons_good hb (mem_one hm)))

theorem gentle_applyAppend (hC : GentleC N C) {v f : Val} {args : List Val} (hv : Fresh N v) (hf : Got v .append f)
    (ha : ∀ w ∈ args, Good w) : Gentle N Good (applyS C f args []) := by
  cases hf with
  | good h => exact gentle_apply hC h ha goodL_nil
  | method hm =>
    have := findMethod_ok hm
    rw [okMethod_append] at this
    cases this
  | bmethod =>
    unfold applyS
    exact .prim fun _ hn hS => calm_libMethod hn hS (fun _ => hv) ha

theorem Fits.look {pr : Profile} {l : Locals} (hl : Fits N pr l) {x : Ident} {v : Val} (h : Src.look x l = some v) :
    Good v ∧ (x ∈ pr.fresh → Fresh N v) ∧ (pr.flag = true → x = .flag → v = .str mark) := hl _ (mem_of_look h)

theorem gentle_own {pr : Profile} {l : Locals} (hl : Fits N pr l) : ∀ {e : Expr}, pr.own e = true →
    Gentle N (fun v => Good v ∧ Fresh N v) (evalS C e l) := by
  intro e he
  unfold Profile.own at he
  split at he
  · next x =>
    rw [Bool.and_eq_true] at he
    unfold evalS
    split
    · next hx =>
      have := hl.look hx
      exact ⟨this.1, this.2.1 (by simpa using he.1)⟩
    · rw [Option.isNone_iff_eq_none.1 he.2]
      trivial
  · cases he

theorem gentle_marks {pr : Profile} {l : Locals} (hl : Fits N pr l) : ∀ {e : Expr}, pr.marks e = true →
    Gentle N (fun v => v = .str mark) (evalS C e l) := by
  intro e he
  unfold Profile.marks at he
  split at he
  · next s =>
    unfold evalS
    have : s = mark := by simpa using he
    rw [this]
    exact rfl
  · next x =>
    rw [Bool.and_eq_true, Bool.and_eq_true] at he
    unfold evalS
    have e : x = .flag := by simpa using he.1.2
    subst e
    split
    · next hx => exact (hl.look hx).2.2 he.1.1 rfl
    · rw [Option.isNone_iff_eq_none.1 he.2]
      trivial
  · cases he

/-- The kinds of calls that pass. -/
inductive Passes (pr : Profile) : Expr → List Expr → List Ident → Prop
  | plain {f : Expr} {args : List Expr} {ks : List Ident} : okE pr f = true → Passes pr f args ks
  | append {e : Expr} {args : List Expr} : pr.own e = true → Passes pr (.attr e .append) args []
  | flag {e a b m : Expr} : okE pr e = true → pr.marks m = true →
      Passes pr (.attr e ._add_flag_recursive_if_name) [a, b, m] []
  | init {b : Ident} {args : List Expr} {ks : List Ident} : .self ∈ pr.fresh → Passes pr (.super b .__init__) args ks

theorem passes {pr : Profile} {f : Expr} {args vs : List Expr} {ks : List Ident} (h : okE pr (.call f args ks vs) = true) :
    Passes pr f args ks ∧ okEs pr args = true ∧ okEs pr vs = true := by
  unfold okE at h
  rw [Bool.and_eq_true, Bool.and_eq_true] at h
  refine ⟨?_, h.1.2, h.2⟩
  have h1 := h.1.1
  generalize hc : pr.callee f args ks = c at h1
  cases c with
  | plain => exact .plain h1
  | bad => cases h1
  | appends =>
    unfold Profile.callee at hc
    split at hc
    · split at hc
      · next h3 =>
        rw [Bool.and_eq_true] at h3
        rw [List.isEmpty_iff.1 h3.2]
        exact .append h3.1
      · cases hc
    · split at hc <;> cases hc
    · split at hc <;> cases hc
    · cases hc
  | flags =>
    unfold Profile.callee at hc
    split at hc
    · split at hc <;> cases hc
    · split at hc
      · next h3 =>
        rw [Bool.and_eq_true] at h3
        rw [List.isEmpty_iff.1 h3.2]
        exact .flag (by simpa only [okV] using h1) h3.1
      · cases hc
    · split at hc <;> cases hc
    · cases hc
  | inits =>
    unfold Profile.callee at hc
    split at hc
    · split at hc <;> cases hc
    · split at hc <;> cases hc
    · split at hc
      · next h3 => exact .init (by simpa using h3)
      · cases hc
    · cases hc

mutual
theorem gentle_eval (hC : GentleC N C) {pr : Profile} : ∀ (e : Expr) (l : Locals), okE pr e = true → Fits N pr l →
    Gentle N Good (evalS C e l)
  | .none, _, _, _ => by simp [evalS, Gentle, Good]
  | .bool _, _, _, _ => by simp [evalS, Gentle, Good]
  | .int _, _, _, _ => by simp [evalS, Gentle, Good]
  | .str _, _, _, _ => by simp [evalS, Gentle, Good]
  | .name x, l, _, hl => by
    unfold evalS
    split
    · next h => exact (hl.look h).1
    · exact .of fun _ h => good_global h
  | .attr e a, l, h, hl => by
    unfold okE at h
    rw [Bool.and_eq_true] at h
    unfold evalS
    exact Gentle.bind (gentle_eval hC e l h.2 hl) fun v hv =>
      (gentle_getAttr hC hv a).mono fun w hw => hw.plain hv (by simpa using h.1)
  | .super b a, l, h, hl => by
    unfold okE at h
    have ha : a ∉ writers := by simpa using h
    unfold evalS
    split
    · trivial
    · next hs =>
      split
      · simp only [Gentle, Good]
        exact ⟨ha, (hl.look hs).1⟩
      · split
        · simp only [Gentle, Good]
          exact ⟨ha, (hl.look hs).1⟩
        · trivial
  | .item e k, l, h, hl => by
    unfold okE at h
    rw [Bool.and_eq_true] at h
    unfold evalS
    exact Gentle.bind (gentle_eval hC e l h.1 hl) fun v _ => Gentle.bind (gentle_eval hC k l h.2 hl) fun k _ =>
      .prim fun _ _ hS => calm_item hS
  | .slice e lo hi, l, h, hl => by
    unfold okE at h
    rw [Bool.and_eq_true, Bool.and_eq_true] at h
    unfold evalS
    refine Gentle.bind (gentle_eval hC e l h.1.1 hl) fun v _ => Gentle.bind (gentle_eval hC lo l h.1.2 hl) fun i _ =>
      Gentle.bind (gentle_eval hC hi l h.2 hl) fun j _ => ?_
    split
    · simp [Gentle, Good]
    · trivial
  | .call f args ks vs, l, h, hl => by
    obtain ⟨hp, h1, h2⟩ := passes h
    have ha : Gentle N (fun vs => ∀ w ∈ vs, Good w) (evalsS C args l) := gentle_evals hC args l h1 hl
    have hv : Gentle N (fun vs => ∀ w ∈ vs, Good w) (evalsS C vs l) := gentle_evals hC vs l h2 hl
    have hz : ∀ {ws : List Val}, (∀ w ∈ ws, Good w) → GoodL (ks.zip ws) := fun h _ hp => h _ (List.of_mem_zip hp).2
    unfold evalS
    cases hp with
    | plain hf =>
      exact Gentle.bind (gentle_eval hC f l hf hl) fun f hf => Gentle.bind ha fun args ha => Gentle.bind hv fun vs hv =>
        gentle_apply hC hf ha (hz hv)
    | @append e _ he =>
      unfold evalS
      refine Gentle.bind (Q := fun f => ∃ v, Fresh N v ∧ Got v .append f) (Gentle.bind (gentle_own hl he) fun v hv =>
        (gentle_getAttr hC hv.1 .append).mono fun w hw => ⟨v, hv.2, hw⟩) fun f hf => ?_
      obtain ⟨v, h3, h4⟩ := hf
      exact Gentle.bind ha fun args ha => Gentle.bind hv fun vs hv => gentle_applyAppend hC h3 h4 ha
    | @flag e a b m he hm =>
      unfold okEs at h1
      rw [Bool.and_eq_true] at h1
      obtain ⟨ok1, h1⟩ := h1
      unfold okEs at h1
      rw [Bool.and_eq_true] at h1
      obtain ⟨ok2, h1⟩ := h1
      have g1 := gentle_eval hC a l ok1 hl
      have g2 := gentle_eval hC b l ok2 hl
      have ha : Gentle N (fun vs => ∃ x y, Good x ∧ Good y ∧ vs = [x, y, .str mark]) (evalsS C [a, b, m] l) := by
        unfold evalsS
        refine Gentle.bind g1 fun x hx => ?_
        unfold evalsS
        refine Gentle.bind (Q := fun vs => ∃ y, Good y ∧ vs = [y, .str mark]) (Gentle.bind g2 fun y hy => ?_)
          fun vs ⟨y, hy, e⟩ => ⟨x, y, hx, hy, by rw [e]⟩
        unfold evalsS
        refine Gentle.bind (Q := fun vs => vs = [.str mark]) (Gentle.bind (gentle_marks hl hm) fun z hz => ?_)
          fun vs e => ⟨y, hy, by rw [e]⟩
        unfold evalsS
        exact congrArg (fun z => [z]) hz
      unfold evalS
      refine Gentle.bind (Q := fun f => ∃ v, Good v ∧ Got v ._add_flag_recursive_if_name f) (Gentle.bind (gentle_eval hC e l he hl)
        fun v hv => (gentle_getAttr hC hv _).mono fun w hw => ⟨v, hv, hw⟩) fun f hf => ?_
      obtain ⟨v, h3, h4⟩ := hf
      refine Gentle.bind ha fun args ha => ?_
      obtain ⟨x, y, hx, hy, e⟩ := ha
      exact Gentle.bind hv fun vs hv => gentle_applyGot hC h3 h4 hx hy e
    | @init b _ _ hs =>
      refine Gentle.bind (Q := fun f => ∃ v c, Fresh N v ∧ f = .method v c .__init__) ?_ fun f hf => ?_
      · unfold evalS
        split
        · trivial
        · next h =>
          have hv := (hl.look h).2.1 hs
          split
          · exact ⟨_, _, hv, rfl⟩
          · split
            · exact ⟨_, _, hv, rfl⟩
            · trivial
      · obtain ⟨v, c, h3, rfl⟩ := hf
        exact Gentle.bind ha fun args ha => Gentle.bind hv fun vs hv => gentle_applyInit hC h3 ha (hz hv)
  | .fstr parts, l, h, hl => by
    unfold okE at h
    unfold evalS
    refine Gentle.bind (gentle_evals hC parts l h hl) fun vs _ => .of fun w hw => ?_
    obtain ⟨_, _, rfl⟩ := Option.map_eq_some_iff.1 hw
    simp [Good]
  | .list es, l, h, hl => by
    unfold okE at h
    unfold evalS
    exact Gentle.bind (gentle_evals hC es l h hl) fun vs hv => (gentle_new (o := .list vs) hv).mono fun _ h => h.1
  | .dict ks es, l, h, hl => by
    unfold okE at h
    unfold evalS
    exact Gentle.bind (gentle_evals hC es l h hl) fun vs hv =>
      (gentle_new (o := .dict _) (good_dictOf ks vs [] hv fun _ h => by cases h)).mono fun _ h => h.1
  | .comp elt x it conds, l, h, hl => by
    unfold okE at h
    rw [Bool.and_eq_true, Bool.and_eq_true, Bool.and_eq_true] at h
    obtain ⟨⟨⟨h1, h2⟩, h3⟩, h4⟩ := h
    unfold evalS
    refine Gentle.bind (gentle_eval hC it l h3 hl) fun v hv => Gentle.bind (gentle_elems hv) fun vs hvs =>
      Gentle.bind (Q := fun ws => ∀ w ∈ ws, Good w) ?_ fun ws hw => (gentle_new (o := .list ws) hw).mono fun _ h => h.1
    have hp := fun l hl => gentle_holds hC conds l h4 hl
    have hq := fun l hl => gentle_eval hC elt l h2 hl
    induction vs with
    | nil => intro w hw; cases hw
    | cons v vs ih =>
      have hl' := hl.cons (hvs v List.mem_cons_self) h1
      have ih := ih fun w hw => hvs w (List.mem_cons_of_mem _ hw)
      unfold compS
      refine Gentle.bind (hp _ hl') fun b _ => ?_
      split
      · exact Gentle.bind (hq _ hl') fun w hw => Gentle.bind ih fun ws hws => mem_cons_good hw hws
      · exact ih
  | .anyGen elt x it, l, h, hl => by
    unfold okE at h
    rw [Bool.and_eq_true, Bool.and_eq_true] at h
    obtain ⟨⟨h1, h2⟩, h3⟩ := h
    unfold evalS
    refine Gentle.bind (gentle_eval hC it l h3 hl) fun v hv => Gentle.bind (gentle_elems hv) fun vs hvs => ?_
    have hq := fun l hl => gentle_eval hC elt l h2 hl
    induction vs with
    | nil => simp [anyS, Gentle, Good]
    | cons v vs ih =>
      have hl' := hl.cons (hvs v List.mem_cons_self) h1
      have ih := ih fun w hw => hvs w (List.mem_cons_of_mem _ hw)
      unfold anyS
      refine Gentle.bind (hq _ hl') fun w _ => Gentle.bind (gentle_test w) fun b _ => ?_
      split
      · simp [Gentle, Good]
      · exact ih
  | .not e, l, h, hl => by
    unfold okE at h
    unfold evalS
    exact Gentle.bind (gentle_eval hC e l h hl) fun v _ => Gentle.bind (gentle_test v) fun b _ => by simp [Gentle, Good]
  | .and a b, l, h, hl => by
    unfold okE at h
    rw [Bool.and_eq_true] at h
    unfold evalS
    refine Gentle.bind (gentle_eval hC a l h.1 hl) fun v hv => Gentle.bind (gentle_test v) fun c _ => ?_
    split
    · exact gentle_eval hC b l h.2 hl
    · exact hv
  | .or a b, l, h, hl => by
    unfold okE at h
    rw [Bool.and_eq_true] at h
    unfold evalS
    refine Gentle.bind (gentle_eval hC a l h.1 hl) fun v hv => Gentle.bind (gentle_test v) fun c _ => ?_
    split
    · exact hv
    · exact gentle_eval hC b l h.2 hl
  | .ite c a b, l, h, hl => by
    unfold okE at h
    rw [Bool.and_eq_true, Bool.and_eq_true] at h
    unfold evalS
    refine Gentle.bind (gentle_eval hC c l h.1.1 hl) fun v hv => Gentle.bind (gentle_test v) fun c _ => ?_
    split
    · exact gentle_eval hC a l h.1.2 hl
    · exact gentle_eval hC b l h.2 hl
  | .cmp op a b, l, h, hl => by
    unfold okE at h
    rw [Bool.and_eq_true] at h
    unfold evalS
    refine Gentle.bind (gentle_eval hC a l h.1 hl) fun v hv => Gentle.bind (gentle_eval hC b l h.2 hl) fun w _ =>
      .prim fun _ _ hS => calm_of hS fun x hx => ?_
    obtain ⟨_, _, rfl⟩ := Option.map_eq_some_iff.1 hx
    simp [Good]
  | .add a b, l, h, hl => by
    unfold okE at h
    rw [Bool.and_eq_true] at h
    unfold evalS
    refine Gentle.bind (gentle_eval hC a l h.1 hl) fun v hv => Gentle.bind (gentle_eval hC b l h.2 hl) fun w _ => ?_
    split
    · simp [Gentle, Good]
    · simp [Gentle, Good]
    · trivial
  | .sub a b, l, h, hl => by
    unfold okE at h
    rw [Bool.and_eq_true] at h
    unfold evalS
    refine Gentle.bind (gentle_eval hC a l h.1 hl) fun v hv => Gentle.bind (gentle_eval hC b l h.2 hl) fun w _ => ?_
    split
    · simp [Gentle, Good]
    · trivial
theorem gentle_evals (hC : GentleC N C) {pr : Profile} : ∀ (es : List Expr) (l : Locals), okEs pr es = true → Fits N pr l →
    Gentle N (fun vs => ∀ w ∈ vs, Good w) (evalsS C es l)
  | [], _, _, _ => by
    unfold evalsS
    intro w hw
    cases hw
  | e :: es, l, h, hl => by
    unfold okEs at h
    rw [Bool.and_eq_true] at h
    unfold evalsS
    exact Gentle.bind (gentle_eval hC e l h.1 hl) fun v hv => Gentle.bind (gentle_evals hC es l h.2 hl) fun vs hvs =>
      mem_cons_good hv hvs
theorem gentle_holds (hC : GentleC N C) {pr : Profile} : ∀ (es : List Expr) (l : Locals), okEs pr es = true → Fits N pr l →
    Gentle N (fun _ => True) (holdsS C es l)
  | [], _, _, _ => by
    unfold holdsS
    trivial
  | e :: es, l, h, hl => by
    unfold okEs at h
    rw [Bool.and_eq_true] at h
    unfold holdsS
    refine Gentle.bind (gentle_eval hC e l h.1 hl) fun v hv => Gentle.bind (gentle_test v) fun b _ => ?_
    split
    · exact gentle_holds hC es l h.2 hl
    · trivial
end

/-- What is known at the end of a statement. -/
def FitsF (N : Nat) (pr : Profile) : Flow → Prop
  | .next l => Fits N pr l
  | .ret v => Good v
  | .cont l => Fits N pr l
  | .exc v l => Good v ∧ Fits N pr l

theorem gentle_out {α : Type} {Q : α → Prop} {pr : Profile} {l : Locals} {f : α → Steps Flow} (hl : Fits N pr l) :
    ∀ {p : Steps α}, Gentle N Q p → (∀ a, Q a → Gentle N (FitsF N pr) (f a)) → Gentle N (FitsF N pr) (p.out l f)
  | .ret a, h, hf => hf a h
  | .exc _, h, _ => ⟨h, hl⟩
  | .stuck, _, _ => trivial
  | .act _ _, h, hf => fun S hn hS => ⟨(h S hn hS).1, (h S hn hS).2.1, gentle_out hl (h S hn hS).2.2 hf⟩

theorem gentle_result {pr : Profile} : ∀ {p : Steps Flow}, Gentle N (FitsF N pr) p → Gentle N Good p.result
  | .ret (.next _), _ => by simp [Steps.result, Gentle, Good]
  | .ret (.ret _), h => h
  | .ret (.cont _), _ => trivial
  | .ret (.exc _ _), h => h.1
  | .exc _, _ => trivial
  | .stuck, _ => trivial
  | .act _ _, h => fun S hn hS => ⟨(h S hn hS).1, (h S hn hS).2.1, gentle_result (h S hn hS).2.2⟩

theorem gentle_while {pr : Profile} {c : Locals → Steps Val} {b : Locals → Steps Flow}
    (hc : ∀ l, Fits N pr l → Gentle N Good (c l)) (hb : ∀ l, Fits N pr l → Gentle N (FitsF N pr) (b l)) :
    ∀ (n : Nat) (l : Locals), Fits N pr l → Gentle N (FitsF N pr) (whileS c b n l)
  | 0, _, _ => trivial
  | n + 1, l, hl => by
    unfold whileS
    refine gentle_out hl (hc l hl) fun v _ => gentle_out hl (gentle_test v) fun x _ => ?_
    split
    · refine Gentle.bind (hb l hl) fun o ho => ?_
      cases o with
      | next l => exact gentle_while hc hb n l ho
      | cont l => exact gentle_while hc hb n l ho
      | ret v => exact ho
      | exc v l => exact ho
    · exact hl

theorem gentle_for {pr : Profile} {bind : Nat → Val → Locals → Locals} {b : Locals → Steps Flow}
    (hbind : ∀ i v l, Good v → Fits N pr l → Fits N pr (bind i v l))
    (hb : ∀ l, Fits N pr l → Gentle N (FitsF N pr) (b l)) :
    ∀ (vs : List Val) (i : Nat) (l : Locals), (∀ v ∈ vs, Good v) → Fits N pr l → Gentle N (FitsF N pr) (forS bind b i vs l)
  | [], _, _, _, hl => hl
  | v :: vs, i, l, hv, hl => by
    unfold forS
    refine Gentle.bind (hb _ (hbind i v l (hv v List.mem_cons_self) hl)) fun o ho => ?_
    have hv' := fun w hw => hv w (List.mem_cons_of_mem v hw)
    cases o with
    | next l => exact gentle_for hbind hb vs _ l hv' ho
    | cont l => exact gentle_for hbind hb vs _ l hv' ho
    | ret v => exact ho
    | exc v l => exact ho

theorem gentle_display (hC : GentleC N C) {pr : Profile} {e : Expr} {l : Locals} (h : okE pr e = true) (hd : display e = true)
    (hl : Fits N pr l) : Gentle N (fun v => Good v ∧ Fresh N v) (evalS C e l) := by
  unfold display at hd
  split at hd
  · unfold okE at h
    unfold evalS
    exact Gentle.bind (gentle_evals hC _ l h hl) fun vs hv => gentle_new (o := .list vs) hv
  · unfold okE at h
    unfold evalS
    exact Gentle.bind (gentle_evals hC _ l h hl) fun vs hv =>
      gentle_new (o := .dict _) (good_dictOf _ vs [] hv fun _ h => by cases h)
  · cases hd

mutual
theorem gentle_exec (hC : GentleC N C) {pr : Profile} : ∀ (s : Stmt) (l : Locals), okS pr s = true → Fits N pr l →
    Gentle N (FitsF N pr) (execS C s l)
  | .assign x e, l, h, hl => by
    unfold okS at h
    rw [Bool.and_eq_true, Bool.or_eq_true] at h
    unfold execS
    rcases h.2 with hx | hx
    · exact gentle_out hl (gentle_eval hC e l h.1 hl) fun v hv => hl.cons hv hx
    · rw [Bool.and_eq_true] at hx
      refine gentle_out hl (gentle_display hC h.1 hx.1 hl) fun v hv => ?_
      intro p hp
      rcases List.mem_cons.1 hp with e | hp
      · rw [e]
        refine ⟨hv.1, fun _ => hv.2, fun h1 h2 => ?_⟩
        have h3 := hx.2
        simp only at h2
        simp [h1, h2] at h3
      · exact hl p hp
  | .setAttr o a e, l, h, hl => by
    unfold okS at h
    rw [Bool.and_eq_true, Bool.and_eq_true, Bool.or_eq_true] at h
    unfold execS
    refine gentle_out hl (gentle_eval hC e l h.1.1 hl) fun v hv =>
      gentle_out (Q := fun w => Fresh N w ∨ a ∈ loose) hl ?_ fun w hw => ?_
    · rcases h.2 with ho | ha
      · exact (gentle_own hl ho).mono fun _ h => .inl h.2
      · exact (gentle_eval hC o l h.1.2 hl).mono fun _ _ => .inr (by simpa using ha)
    · split
      · refine gentle_out hl (.prim fun _ _ hS => calm_putField hS hv (hw.imp_left ?_)) fun _ _ => hl
        rintro ⟨r, e, hr⟩
        cases e
        exact hr
      · trivial
  | .setItem o k e, l, h, hl => by
    unfold okS at h
    rw [Bool.and_eq_true, Bool.and_eq_true, Bool.and_eq_true, Bool.or_eq_true] at h
    obtain ⟨⟨⟨he, ho⟩, hk⟩, h⟩ := h
    unfold execS
    rcases h with h | h
    · refine gentle_out hl (gentle_eval hC e l he hl) fun v hv => gentle_out hl (gentle_own hl h) fun w hw =>
        gentle_out hl (gentle_eval hC k l hk hl) fun k _ => ?_
      split
      · refine gentle_out hl (.prim fun _ _ hS => calm_putItem hS hv (.inl ?_)) fun _ _ => hl
        obtain ⟨_, r, e, hr⟩ := hw
        cases e
        exact hr
      · trivial
    · rw [Bool.and_eq_true] at h
      refine gentle_out hl (gentle_marks hl h.2) fun v hv => gentle_out hl (gentle_eval hC o l ho hl) fun w hw =>
        gentle_out hl (gentle_marks hl h.1) fun k hk => ?_
      subst hv hk
      split
      · next e =>
        cases e
        exact gentle_out hl (.prim fun _ _ hS => calm_putItem hS (by simp [Good]) (.inr ⟨rfl, rfl⟩)) fun _ _ => hl
      · trivial
  | .expr e, l, h, hl => by
    unfold okS at h
    unfold execS
    exact gentle_out hl (gentle_eval hC e l h hl) fun _ _ => hl
  | .ret e, l, h, hl => by
    unfold okS at h
    unfold execS
    exact gentle_out hl (gentle_eval hC e l h hl) fun _ hv => hv
  | .raise e, l, h, hl => by
    unfold okS at h
    unfold execS
    exact gentle_out hl (gentle_eval hC e l h hl) fun _ hv => ⟨hv, hl⟩
  | .ite c a b, l, h, hl => by
    unfold okS at h
    rw [Bool.and_eq_true, Bool.and_eq_true] at h
    unfold execS
    refine gentle_out hl (gentle_eval hC c l h.1.1 hl) fun v _ => gentle_out hl (gentle_test v) fun x _ => ?_
    split
    · exact gentle_execs hC a l h.1.2 hl
    · exact gentle_execs hC b l h.2 hl
  | .while c body, l, h, hl => by
    unfold okS at h
    rw [Bool.and_eq_true] at h
    unfold execS
    exact gentle_while (fun l hl => gentle_eval hC c l h.1 hl) (fun l hl => gentle_execs hC body l h.2 hl) _ l hl
  | .for x it body, l, h, hl => by
    unfold okS at h
    rw [Bool.and_eq_true, Bool.and_eq_true] at h
    unfold execS
    exact gentle_out hl (gentle_eval hC it l h.1.2 hl) fun v hv => gentle_out hl (gentle_elems hv) fun vs hvs =>
      gentle_for (fun _ _ _ hv hl => hl.cons hv h.1.1) (fun l hl => gentle_execs hC body l h.2 hl) vs 0 l hvs hl
  | .forEnum i x it body, l, h, hl => by
    unfold okS at h
    rw [Bool.and_eq_true, Bool.and_eq_true, Bool.and_eq_true] at h
    unfold execS
    exact gentle_out hl (gentle_eval hC it l h.1.2 hl) fun v hv => gentle_out hl (gentle_elems hv) fun vs hvs =>
      gentle_for (bind := fun n v l => (x, v) :: (i, .int n) :: l)
        (fun _ _ _ hv hl => (hl.cons (by simp [Good]) h.1.1.1).cons hv h.1.1.2)
        (fun l hl => gentle_execs hC body l h.2 hl) vs 0 l hvs hl
  | .tryExcept body x handler, l, h, hl => by
    unfold okS at h
    rw [Bool.and_eq_true, Bool.and_eq_true] at h
    unfold execS
    refine Gentle.bind (gentle_execs hC body l h.1.2 hl) fun o ho => ?_
    cases o with
    | exc v l =>
      refine Gentle.bind (gentle_execs hC handler _ h.2 (ho.2.cons ho.1 h.1.1)) fun o ho => ?_
      cases o with
      | next l => exact Fits.unset (pr := pr) ho x
      | ret v => exact ho
      | cont l => exact Fits.unset (pr := pr) ho x
      | exc v l => exact ⟨ho.1, ho.2.unset x⟩
    | next l => exact ho
    | ret v => exact ho
    | cont l => exact ho
  | .continue, _, _, hl => by unfold execS; exact hl
  | .pass, _, _, hl => by unfold execS; exact hl
theorem gentle_execs (hC : GentleC N C) {pr : Profile} : ∀ (ss : List Stmt) (l : Locals), okSs pr ss = true → Fits N pr l →
    Gentle N (FitsF N pr) (execsS C ss l)
  | [], _, _, hl => by unfold execsS; exact hl
  | s :: ss, l, h, hl => by
    unfold okSs at h
    rw [Bool.and_eq_true] at h
    unfold execsS Steps.andThen
    refine Gentle.bind (gentle_exec hC s l h.1 hl) fun o ho => ?_
    cases o with
    | next l => exact gentle_execs hC ss l h.2 ho
    | ret v => exact ho
    | cont l => exact ho
    | exc v l => exact ho
end

/-- Calls of functions that pass are gentle. -/
theorem gentle_call (env : Env) (N : Nat) : ∀ n : Nat, GentleC N ⟨env, callS env n, n⟩
  | 0, _, _, _, _ => trivial
  | n + 1, f, args, kw, h => by
    show Gentle N Good (callS env (n + 1) f args kw)
    obtain ⟨pr, hb, hp⟩ := h
    unfold callS
    split
    · trivial
    · next l hl => exact gentle_result (gentle_execs (gentle_call env N n) f.body l hb (hp l hl))

end

end Verif.Src.Writes
