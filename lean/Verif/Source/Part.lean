import Verif.Source.World
import Verif.Source.Frame
import Verif.Source.Fuel

/-!
# A part of the store

A set of objects that refer to each other only can be taken out of a store, and what a program does
with them is what it would do if they were the only ones.
-/

namespace Verif.Src

mutual
/-- The value with other addresses. -/
def renV (f : Nat → Nat) : Val → Val
  | .obj a => .obj (f a)
  | .method v c m => .method (renV f v) c m
  | .bmethod v m => .bmethod (renV f v) m
  | .seq vs => .seq (renVs f vs)
  | v => v
/-- The values with other addresses. -/
def renVs (f : Nat → Nat) : List Val → List Val
  | [] => []
  | v :: vs => renV f v :: renVs f vs
end

/-- The object with other addresses. -/
def renO (f : Nat → Nat) : Obj → Obj
  | .list vs => .list (renVs f vs)
  | .dict d => .dict (d.map fun p => (p.1, renV f p.2))
  | .inst c fs => .inst c (fs.map fun p => (p.1, renV f p.2))

section
variable {P : Nat → Prop} {ρ : List Nat} {f : Nat → Nat} (hf : ∀ a, P a → ρ[f a]? = some a)
include hf

mutual
theorem vrel_ren : ∀ v : Val, OwnV P v → VRel ρ (renV f v) v
  | .obj a, h => by
    rw [renV]
    exact .obj (hf a h.addr)
  | .method v c m, h => by
    rw [renV]
    exact .method (vrel_ren v (by simpa only [OwnV] using h))
  | .bmethod v m, h => by
    rw [renV]
    exact .bmethod (vrel_ren v (by simpa only [OwnV] using h))
  | .seq vs, h => by
    rw [renV]
    exact .seq (vrels_ren vs (by simpa only [OwnV] using h))
  | .none, _ | .bool _, _ | .int _, _ | .str _, _ | .node _, _ | .exc _, _ | .cls _, _ | .func _, _
  | .static _ _, _ | .builtin _, _ | .module _, _ | .enum _ _, _
  | .table _, _ | .record _, _ | .document _, _ | .nodeMap _, _ | .nodeAttr _ _, _ | .pattern _, _ | .matched, _ => by
    simp only [renV]
    exact .same rfl
theorem vrels_ren : ∀ vs : List Val, OwnVs P vs → VRels ρ (renVs f vs) vs
  | [], _ => by rw [renVs]; exact .nil
  | v :: vs, h => by
    rw [renVs]
    rw [OwnVs] at h
    exact .cons (vrel_ren v h.1) (vrels_ren vs h.2)
end

theorem prel_ren {κ : Type} : ∀ l : List (κ × Val), (∀ p ∈ l, OwnV P p.2) → PRel ρ (l.map fun p => (p.1, renV f p.2)) l
  | [], _ => .nil
  | (_, v) :: l, h => .cons (vrel_ren hf v (h _ List.mem_cons_self))
      (prel_ren l fun p hp => h p (List.mem_cons_of_mem _ hp))

theorem orel_ren : ∀ o : Obj, OwnO P o → ORel ρ (renO f o) o
  | .list vs, h => .list (vrels_ren hf vs (ownVs_iff.2 h))
  | .dict d, h => .dict (prel_ren hf d h)
  | .inst _ fs, h => .inst (prel_ren hf fs h)
end

open Classical in
/-- The objects in `P` on their own. -/
theorem part_of (S : Store) (P : Nat → Prop) (hb : ∀ a, P a → a < S.length)
    (hc : ∀ a o, P a → S[a]? = some o → OwnO P o) :
    ∃ ρ S', SRel ρ S' S ∧ ∀ a, a ∈ ρ ↔ P a := by
  have hm : ∀ a, a ∈ (List.range S.length).filter (fun a => decide (P a)) ↔ P a := by
    intro a
    rw [List.mem_filter, List.mem_range, decide_eq_true_iff]
    exact ⟨fun h => h.2, fun h => ⟨hb a h, h⟩⟩
  have hn : ((List.range S.length).filter (fun a => decide (P a))).Nodup := List.nodup_range.filter _
  generalize (List.range S.length).filter (fun a => decide (P a)) = ρ at hm hn
  have hex : ∀ a, P a → ∃ i, ρ[i]? = some a := fun a ha => List.getElem?_of_mem ((hm a).2 ha)
  let f : Nat → Nat := fun a => if h : ∃ i, ρ[i]? = some a then h.choose else 0
  have hf : ∀ a, P a → ρ[f a]? = some a := by
    intro a ha
    have h := hex a ha
    show ρ[if h : ∃ i, ρ[i]? = some a then h.choose else 0]? = some a
    rw [dif_pos h]
    exact h.choose_spec
  refine ⟨ρ, ρ.map fun a => renO f (S[a]?.getD (.list [])), ⟨by simp, hn, fun {i a o} h1 h2 => ?_⟩, hm⟩
  rw [List.getElem?_map, h2] at h1
  cases h1
  have ha : P a := (hm a).1 (List.mem_of_getElem? h2)
  have hs := List.getElem?_eq_getElem (hb a ha)
  refine ⟨_, hs, ?_⟩
  dsimp only
  rw [hs]
  exact orel_ren hf _ (hc a _ ha hs)

theorem Moves.trans {ρ ρ' ρ'' : List Nat} {S h h' : Store} (m : Moves ρ ρ' S h) (m' : Moves ρ' ρ'' h h') :
    Moves ρ ρ'' S h' where
  ext := m.ext.trans m'.ext
  grow := Nat.le_trans m.grow m'.grow
  keep := fun a ha hn => by
    rw [m'.keep a (Nat.lt_of_lt_of_le ha m.grow) fun hm => ?_, m.keep a ha hn]
    rcases m.fresh a hm with h | h
    · exact hn h
    · omega
  fresh := fun a ha => by
    rcases m'.fresh a ha with h | h
    · exact m.fresh a h
    · exact .inr (Nat.le_trans m.grow h)

/-- The same result, with the addresses changed. -/
inductive Alike (ρ : List Nat) (S' : Store) : Res Val → Res Val → Prop
  | ok {ρ' : List Nat} {v v' : Val} {h h' : Store} : Moves ρ ρ' S' h' → SRel ρ' h h' → VRel ρ' v v' →
      Alike ρ S' (.ok v h) (.ok v' h')
  | exc {ρ' : List Nat} {v v' : Val} {h h' : Store} : Moves ρ ρ' S' h' → SRel ρ' h h' → VRel ρ' v v' →
      Alike ρ S' (.exc v h) (.exc v' h')
  | stuck : Alike ρ S' .stuck .stuck

theorem alike_run : ∀ (p : Steps Val) (p' : Steps Val) (ρ : List Nat) (S S' : Store), Sim VRel p ρ p' →
    SRel ρ S S' → Alike ρ S' (p.run S) (p'.run S')
  | .ret _, _, ρ, S, S', h, hs => by
    obtain ⟨_, rfl, hv⟩ := h
    exact .ok (.refl ρ S') hs hv
  | .exc _, _, ρ, S, S', h, hs => by
    obtain ⟨_, rfl, hv⟩ := h
    exact .exc (.refl ρ S') hs hv
  | .stuck, _, ρ, S, S', h, hs => by
    cases h
    exact .stuck
  | .act g k, _, ρ, S, S', h, hs => by
    obtain ⟨g', k', rfl, h⟩ := h
    obtain ⟨ρ', m, hs', h'⟩ := h S S' hs
    have ih := alike_run (k S) (k' S') ρ' (g S) (g' S') h' hs'
    rw [Steps.run, Steps.run]
    generalize (k S).run (g S) = r at ih
    generalize (k' S').run (g' S') = r' at ih
    cases ih with
    | ok m' hs hv => exact .ok (m.trans m') hs hv
    | exc m' hs hv => exact .exc (m.trans m') hs hv
    | stuck => exact .stuck

/-- A call does the same with the objects on their own. -/
theorem alike_call (env : Env) (n : Nat) (f : Func) {args args' : List Val} {ρ : List Nat} {S S' : Store}
    (ha : VRels ρ args args') (hs : SRel ρ S S') :
    Alike ρ S' (call env n f args [] S) (call env n f args' [] S') := by
  have := alike_run _ _ ρ S S' (sim_call env n f args args' [] [] ρ ha .nil) hs
  rwa [run_callS, run_callS] at this

end Verif.Src
