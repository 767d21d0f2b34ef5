import Verif.Props.Layer
import Verif.Proofs.Mode3
/-
The order in which mode 3 selects the nodes: C58.
-/
set_option linter.unusedSectionVars false
set_option maxRecDepth 10000
namespace Goslide.Props
open Goslide Goslide.Layer Goslide.Node Lsh Configuration Spec.Node Spec.Layer
variable {F : Type} [GoFloat F]

/-- C58, what holds about the order. A mode-3 query of a softmax layer that returns lists the nodes by decreasing
score, labels counted as 10^9, nodes of equal score by number; then zeros, if floor(n*sparsity) > n. The reported
number is 1 if a label is a node of the layer, otherwise 0. `P i` are the parameters of node `i`; the keys must not be NaN.
(Missing: sparse layers, where the code panics, `C58_false`.) -/
theorem C58_order_partial [FloatOrder F] [FloatEq F] {cfg : Config F} {fuel : Nat} {p : Ptr} {c : Int} {cur : List (Pair F)}
    {i : Int} {label : List Int} {sp : F} {w w' : World F} {found : Int} {pairs : List (Pair F)} {l : Ptr} {x : Layer}
    {ps : List Ptr} {P : Nat → Params F}
    (hsp : GoFloat.eq sp GoFloat.one = false) (hm : cfg.LayerMode = 3) (hx : w.layers[p]? = some x)
    (hty : x.nodeType = Softmax) (hps : readSlice w.heap.nodeArrs x.nodes = some ps)
    (hP : ∀ (j : Nat) (q : Ptr), ps[j]? = some q → params w.heap q = some (P j))
    (hnan : ∀ j < x.nodes.len, FloatOrder.isNaN (rank P cur label j) = false)
    (hq : query cfg fuel p c cur i label sp w = .ok ((found, pairs, l), w')) :
    (∃ act : List Nat, act.Perm (List.range x.nodes.len) ∧ act.Pairwise (Before P cur label) ∧
      pairs.map Pair.Index = act.map (fun (j : Nat) => (j : Int)) ++
        List.replicate ((sampleSize x sp).toNat - x.nodes.len) 0) ∧
    found = if ∃ y ∈ label, 0 ≤ y ∧ y < x.nodes.len then 1 else 0 := by
  have hge : x.nodes.len ≤ sampleSize x sp := (C58_partial hsp hm hx hty hq).1
  obtain ⟨x', ids, w2, ls, hx', hs, hi⟩ := query_ids hq
  rw [hx] at hx'; cases hx'
  obtain ⟨ps', ws, act, h1, h2, h3, rfl⟩ := select_mode3 hsp hm (by exact hty) hs
  have h1' : readSlice w.heap.nodeArrs x.nodes = some ps' := h1
  rw [hps] at h1'
  cases h1'
  have hlen : ps.length = x.nodes.len := readSlice_length hps
  have hn : ws.length = x.nodes.len := by rw [nodeScores_length _ _ _ _ h2]; exact hlen
  unfold mode3 at h3
  unfold sampleSize at hge ⊢
  rw [hn] at h3
  dsimp only at h3
  rw [if_neg (by omega), bind_ok_iff] at h3
  obtain ⟨sw, h4, h5⟩ := h3
  have hidx := mode3Scores_spec label cur ws 0 sw h4
  have hl : sw.length = x.nodes.len := by
    have := congrArg List.length hidx
    simpa [hn] using this
  have hl' := (sortPairs_perm sw).length_eq
  rw [mode3Copy_run label _ 0 _ _ (by rw [List.length_replicate, hl', hl]; omega)] at h5
  have e := congrArg Prod.fst (Except.ok.inj h5)
  have e2 := congrArg Prod.snd (Except.ok.inj h5)
  simp only [List.take_zero, List.nil_append, Nat.zero_add, List.drop_replicate, hl', hl] at e
  simp only [Option.getD_some] at hi
  have hval : ∀ j < x.nodes.len, sw[j]? = some ⟨(j : Int), rank P cur label j⟩ := by
    intro j hj
    have hp' : ps[j]? = some (ps[j]'(by omega)) := List.getElem?_eq_getElem (by omega)
    have hw := nodeScores_params h2 j _ _ hp' (hP j _ hp')
    have := mode3Scores_value h4 j _ _ hw
    rw [Nat.zero_add] at this
    exact this
  have hmem : ∀ z ∈ sw, ∃ j < x.nodes.len, z = ⟨(j : Int), rank P cur label j⟩ := by
    intro z hz
    obtain ⟨j, hj, rfl⟩ := List.mem_iff_getElem.mp hz
    refine ⟨j, by omega, ?_⟩
    have := hval j (by omega)
    rw [List.getElem?_eq_getElem hj] at this
    exact Option.some.inj this
  have hmem' : ∀ z ∈ sortPairs sw, ∃ j < x.nodes.len, z = ⟨(j : Int), rank P cur label j⟩ := fun z hz =>
    hmem z ((sortPairs_perm sw).mem_iff.mp hz)
  have hidx' : sw.map Pair.Index = (List.range x.nodes.len).map (fun (j : Nat) => (j : Int)) := by
    rw [hidx, hn, List.range_eq_range']
  have hnd : (sw.map Pair.Index).Nodup := by
    rw [hidx']
    refine List.Pairwise.map _ ?_ List.nodup_range
    intro a b hab h
    exact hab (Int.ofNat.inj h)
  have hsort := sortPairs_strict sw (by
    intro y hy
    obtain ⟨j, hj, rfl⟩ := hmem y hy
    exact hnan j hj) hnd
  refine ⟨⟨(sortPairs sw).map (fun z => z.Index.toNat), ?_, ?_, ?_⟩, ?_⟩
  · have := ((sortPairs_perm sw).map Pair.Index)
    rw [hidx'] at this
    have := this.map Int.toNat
    simpa [List.map_map, Function.comp_def] using this
  · rw [List.pairwise_map]
    refine List.Pairwise.imp_of_mem ?_ hsort
    intro a b ha hb hab
    obtain ⟨j, hj, rfl⟩ := hmem' a ha
    obtain ⟨k, hk, rfl⟩ := hmem' b hb
    have hfj : Fine (⟨(j : Int), rank P cur label j⟩ : Pair F) := hnan j hj
    have hfk : Fine (⟨(k : Int), rank P cur label k⟩ : Pair F) := hnan k hk
    rw [pairLess_iff hfj hfk] at hab
    unfold Before
    simpa using hab
  · rw [hi, ← e, List.map_map]
    congr 1
    apply List.map_congr_left
    intro a ha
    obtain ⟨j, hj, rfl⟩ := hmem' a ha
    simp
  · dsimp only at e2
    rw [← e2]
    have hiff : (sortPairs sw).any (fun x => intSliceContains label x.Index) = true ↔
        ∃ y ∈ label, 0 ≤ y ∧ y < x.nodes.len := by
      rw [List.any_eq_true]
      constructor
      · rintro ⟨z, hz, hc⟩
        obtain ⟨j, hj, rfl⟩ := hmem' z hz
        exact ⟨j, (intSliceContains_iff _ _).mp hc, by omega, by exact_mod_cast hj⟩
      · rintro ⟨y, hy, h0, h1⟩
        have hj : y.toNat < x.nodes.len := by omega
        refine ⟨⟨(y.toNat : Int), rank P cur label y.toNat⟩, ?_, (intSliceContains_iff _ _).mpr ?_⟩
        · rw [(sortPairs_perm sw).mem_iff]
          exact List.mem_of_getElem? (hval _ hj)
        · have : ((y.toNat : Nat) : Int) = y := by omega
          simpa [this] using hy
    by_cases hc : (sortPairs sw).any (fun x => intSliceContains label x.Index) = true
    · rw [if_pos hc, if_pos (hiff.mp hc)]
    · rw [if_neg hc, if_neg (fun h => hc (hiff.mpr h))]

/-- The order without labels, with one label, and with two. -/
example : LayerEx.ids 3 3 0 [] (5/3) = .ok [2, 0, 1, 0, 0] := by decide +kernel
example : LayerEx.ids 3 3 0 [1] (5/3) = .ok [1, 2, 0, 0, 0] := by decide +kernel
example : LayerEx.ids 3 3 0 [1, 0] (5/3) = .ok [0, 1, 2, 0, 0] := by decide +kernel

end Goslide.Props
