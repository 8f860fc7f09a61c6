import Verif.Props.Reader
import Verif.Props.Interleave

/-!
# A reader shared by threads, at the level of the source text (C74)

What goes wrong with a shared `XmlToMathMLAdapter` does so with the source text: here are two schedules.
-/

namespace Verif.Src
open Spec

/-- One operation of a thread, if it has one. -/
def World.step (W : World) (i : Nat) : World :=
  match W.threads[i]? with
  | some (.act g k) => ⟨g W.store, W.foreign, W.threads.set i (k W.store)⟩
  | _ => W

/-- The threads do their operations in this order. -/
def World.play : List Nat → World → World
  | [], W => W
  | i :: is, W => World.play is (W.step i)

theorem play_course : ∀ (is : List Nat) (W : World), ∃ es, Course es W (W.play is)
  | [], W => ⟨[], .nil W⟩
  | i :: is, W => by
    obtain ⟨es, h⟩ := play_course is (W.step i)
    rw [World.play]
    unfold World.step at h ⊢
    split at h
    · next g k hk => exact ⟨_, .cons (.thread hk) h⟩
    · exact ⟨es, h⟩

/-- A parser that knows two documents, and one without `math`. -/
def twoTexts : Env where
  parse t := if t = c!"<x>" then .ok [.elem c!"math" [] [.elem c!"mi" [] [.text c!"x"]]]
    else if t = c!"<y>" then .ok [.elem c!"math" [] [.elem c!"mi" [] [.text c!"y"]]]
    else .ok []
  isWord _ := true

/-- Two threads call `convert` of the same reader. -/
def bothRead (s t : Str) : World := ⟨withReader [], fun _ => False,
  [callS twoTexts 12 readCode [.obj 3, .str s] [], callS twoTexts 12 readCode [.obj 3, .str t] []]⟩

/-- The texts of the first children of the elements in the list. -/
def firstTexts (S : Store) (l : Nat) : Option (List Str) := do
  let .list vs ← S[l]? | none
  vs.mapM fun v => do
    let .obj a := v | none
    let .inst .GenericMathMLElement [_, _, (._children, .obj la), _] ← S[a]? | none
    let .list (.obj c :: _) ← S[la]? | none
    let .inst .GenericMathMLElement [_, (._value, .str s), _, _] ← S[c]? | none
    return s

/-- The thread has returned a list of elements with these texts in them. -/
def World.answer (W : World) (i : Nat) : Option (List Str) :=
  match W.threads[i]? with
  | some (.ret (.obj l)) => firstTexts W.store l
  | _ => none

theorem answer_ret {W : World} {i : Nat} {ts : List Str} (h : W.answer i = some ts) :
    ∃ l, W.threads[i]? = some (.ret (.obj l)) ∧ firstTexts W.store l = some ts := by
  unfold World.answer at h
  split at h
  · next l hl => exact ⟨l, hl, h⟩
  · cases h

/-- Thread 0 does `p` operations, then thread 1 does all of its own, then thread 0 the rest. -/
def interrupted (p : Nat) : List Nat := List.replicate p 0 ++ List.replicate 150 1 ++ List.replicate 150 0

/-- **C74** Of two threads that share a reader, one reading `<x>` and the other one `<y>`, both may
get the elements of `<y>`. -/
theorem C74_source_mixed : ∃ es W l m, Course es (bothRead c!"<x>" c!"<y>") W ∧
    W.threads[0]? = some (.ret (.obj l)) ∧ firstTexts W.store l = some [c!"y"] ∧
    W.threads[1]? = some (.ret (.obj m)) ∧ firstTexts W.store m = some [c!"y"] := by
  obtain ⟨es, h⟩ := play_course (interrupted 16) (bothRead c!"<x>" c!"<y>")
  have h0 : ((bothRead c!"<x>" c!"<y>").play (interrupted 16)).answer 0 = some [c!"y"] := by decide +kernel
  have h1 : ((bothRead c!"<x>" c!"<y>").play (interrupted 16)).answer 1 = some [c!"y"] := by decide +kernel
  obtain ⟨l, a1, a2⟩ := answer_ret h0
  obtain ⟨m, b1, b2⟩ := answer_ret h1
  exact ⟨es, _, l, m, h, a1, a2, b1, b2⟩

/-- **C74** On its own, each gets what it asked for. -/
theorem C74_source_alone : ∃ es W l, Course es (bothRead c!"<x>" c!"<y>") W ∧
    W.threads[0]? = some (.ret (.obj l)) ∧ firstTexts W.store l = some [c!"x"] := by
  obtain ⟨es, h⟩ := play_course (interrupted 150) (bothRead c!"<x>" c!"<y>")
  have h0 : ((bothRead c!"<x>" c!"<y>").play (interrupted 150)).answer 0 = some [c!"x"] := by decide +kernel
  obtain ⟨l, a1, a2⟩ := answer_ret h0
  exact ⟨es, _, l, h, a1, a2⟩

/-- Thread 0 does `p` operations, then thread 1 does `q`, then thread 0 the rest, then thread 1. -/
def interleaved (p q : Nat) : List Nat :=
  List.replicate p 0 ++ List.replicate q 1 ++ List.replicate 150 0 ++ List.replicate 150 1

/-- **C74** Two threads read the same text, with the prefixes of MS Word; one of them may find nothing. -/
theorem C74_source_prefix : ∃ es W l m, Course es (bothRead c!"<mml:x>" c!"<mml:x>") W ∧
    W.threads[0]? = some (.ret (.obj l)) ∧ firstTexts W.store l = some [] ∧
    W.threads[1]? = some (.ret (.obj m)) ∧ firstTexts W.store m = some [c!"x"] := by
  obtain ⟨es, h⟩ := play_course (interleaved 16 10) (bothRead c!"<mml:x>" c!"<mml:x>")
  have h0 : ((bothRead c!"<mml:x>" c!"<mml:x>").play (interleaved 16 10)).answer 0 = some [] := by decide +kernel
  have h1 : ((bothRead c!"<mml:x>" c!"<mml:x>").play (interleaved 16 10)).answer 1 = some [c!"x"] := by decide +kernel
  obtain ⟨l, a1, a2⟩ := answer_ret h0
  obtain ⟨m, b1, b2⟩ := answer_ret h1
  exact ⟨es, _, l, m, h, a1, a2, b1, b2⟩

end Verif.Src
