import Verif.Proofs.GradExample
import Verif.Proofs.NetworkStatic
/-
The deltas of all nodes are 0 between the passes of the examples, with Adam.
-/
set_option linter.unusedSectionVars false
namespace Goslide.Network
open Goslide Node Spec.Node Spec.Network Xcrepo
variable {F : Type} [GoFloat F]

theorem accumulate_still {i : Nat} {data : List (Pair F)} {ids : List Int} {D : Nat → F} {vs : List (View F)} (h : Still vs) :
    Still (accumulate i data ids D vs) := by
  intro v hv s hs
  obtain ⟨k, hk⟩ := List.mem_iff_getElem?.mp hv
  unfold accumulate at hk
  rw [List.getElem?_mapIdx] at hk
  obtain ⟨v0, h0, rfl⟩ := Option.map_eq_some_iff.mp hk
  have hm := List.mem_of_getElem? h0
  split at hs
  · rcases List.mem_or_eq_of_mem_set (show s ∈ v0.train.set i idle from hs) with h1 | rfl
    · exact h v0 hm s h1
    · rfl
  · exact h v0 hm s hs

theorem accumulateAll_still (i : Nat) : ∀ (B : List Bool) (V : List (List (View F))) (data : List (Pair F)) (S : List (List Int)) (Ds : List (Nat → F)),
    (∀ vs ∈ V, Still vs) → ∀ vs ∈ accumulateAll i (B.zip V) data S Ds, Still vs
  | [], _, _, _, _, _ => by simp [accumulateAll]
  | _ :: _, [], _, _, _, _ => by simp [accumulateAll]
  | _ :: _, _ :: _, _, [], _, _ => by simp [accumulateAll]
  | _ :: _, _ :: _, _, _ :: _, [], _ => by simp [accumulateAll]
  | b :: B, vs :: V, data, ids :: S, D :: Ds, h => by
    intro us hu
    rw [List.zip_cons_cons, accumulateAll] at hu
    rcases List.mem_cons.mp hu with rfl | hu
    · exact accumulate_still (h vs (by simp))
    · exact accumulateAll_still i B V _ S Ds (fun vs hv => h vs (by simp [hv])) us hu

/-- The active nodes `S` of input `i` are distinct nodes with a training state for the input. -/
structure SlotsOk (V : List (List (View F))) (i : Nat) (S : List (List Int)) : Prop where
  len : S.length = V.length
  nodup : ∀ ids ∈ S, ids.Nodup
  slot : ∀ (j : Nat) (vs : List (View F)) (ids : List Int), V[j]? = some vs → S[j]? = some ids → ∀ id ∈ ids, 0 ≤ id ∧ ∃ v, vs[id.toNat]? = some v ∧ i < v.train.length

theorem SlotsOk.rested {V : List (List (View F))} {i : Nat} {S : List (List Int)} (h : SlotsOk V i S) (hs : ∀ vs ∈ V, Still vs) (j : Nat) (vs : List (View F)) (ids : List Int)
    (h1 : V[j]? = some vs) (h2 : S[j]? = some ids) : Rested i ids vs := by
  refine ⟨h.nodup ids (List.mem_of_getElem? h2), fun id hi => ?_⟩
  obtain ⟨h0, v, hv, hl⟩ := h.slot j vs ids h1 h2 id hi
  exact ⟨h0, v, _, hv, List.getElem?_eq_getElem hl, hs vs (List.mem_of_getElem? h1) v (List.mem_of_getElem? hv) _ (List.getElem_mem hl)⟩

theorem SlotsOk.congr {V V' : List (List (View F))} (hd : V'.map (List.map View.dims) = V.map (List.map View.dims)) {i : Nat} {S : List (List Int)} (h : SlotsOk V i S) :
    SlotsOk V' i S := by
  refine ⟨by rw [h.len]; simpa using (congrArg List.length hd).symm, h.nodup, fun j vs' ids h1 h2 id hi => ?_⟩
  have e := congrArg (fun l => l[j]?) hd
  simp only [List.getElem?_map, h1, Option.map_some] at e
  obtain ⟨vs, h3, e⟩ := Option.map_eq_some_iff.mp e.symm
  obtain ⟨h0, v, hv, hl⟩ := h.slot j vs ids h3 h2 id hi
  have e := congrArg (fun l => l[id.toNat]?) e
  simp only [List.getElem?_map, hv, Option.map_some] at e
  obtain ⟨v', h4, e⟩ := Option.map_eq_some_iff.mp e.symm
  have : v'.train.length = v.train.length := congrArg Dims.train e
  exact ⟨h0, v', h4, by omega⟩

theorem example_still {lr : F} {B : List Bool} {i : Nat} {ex : Example F} {S : List (List Int)} {V : List (List (View F))} (hB : B.length = V.length)
    (h : SlotsOk V i S) (hs : ∀ vs ∈ V, Still vs) : ∀ vs ∈ exampleV true lr B i ex S V, Still vs := by
  rw [example_grad lr B i ex S V hB h.len (h.rested hs)]
  exact accumulateAll_still i B V _ S _ hs

theorem batch_still {lr : F} {B : List Bool} : ∀ (es : List (Example F)) (T : List (List (List Int))) (i : Nat) (V : List (List (View F))), B.length = V.length →
    (∀ (e : Nat) (S : List (List Int)), T[e]? = some S → SlotsOk V (i + e) S) → (∀ vs ∈ V, Still vs) →
    ∀ vs ∈ batchV true lr B i es T V, Still vs
  | [], T, i, V, _, _, hs => by cases T <;> exact hs
  | _ :: _, [], _, _, _, _, hs => hs
  | ex :: es, S :: T, i, V, hB, hT, hs => by
    have h0 := hT 0 S rfl
    have hd := (dims_stable (F := F) true).example lr B i ex S V hB h0.len
    have hl : (exampleV true lr B i ex S V).length = V.length := by simpa using congrArg List.length hd
    rw [batchV]
    refine batch_still es T (i + 1) _ (by rw [hl]; exact hB) (fun e S' h => ?_) (example_still hB h0 hs)
    have := (hT (e + 1) S' (by simpa using h)).congr hd
    rwa [show i + 1 + e = i + (e + 1) by omega]

end Goslide.Network
