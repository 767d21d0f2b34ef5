import Verif.Proofs.NetworkForward
/-
Prediction.
-/
set_option linter.unusedSectionVars false
namespace Goslide.Network
open Goslide Node Lsh Configuration Spec.Node Spec.Network Layer Xcrepo
variable {F : Type} [GoFloat F]

theorem flatMap_mem_nodes {Q : List (State F)} {g : State F} (hg : g ∈ Q) {x : Ptr × View F} (hx : x ∈ g.nodes) :
    x ∈ Q.flatMap State.nodes := List.mem_flatMap.mpr ⟨g, hg, hx⟩

/-- The prediction for one example. -/
theorem predictOne_ok [FloatOrder F] {cfg : Config F} {fuel : Nat} {c : Int} {n : Network F} {last : Ptr} {i : Nat} {features : List (Pair F)}
    {w w' : World F} {Q : List (State F)} {gl : State F} {x : Layer} {cls : Int} (L : Layers w n.hiddenLayers Q)
    (hn : n.numberOfLayers = Q.length) (hgl : Q[Q.length - 1]? = some gl) (hx : w.layers[last]? = some x) (hxn : x.nodes = gl.obj.nodes)
    (hr : predictOne cfg fuel c n last i features w = .ok (cls, w')) :
    ∃ S Q' l, Passes c i (Selected cfg fuel c [] n.sparsity n.numberOfLayers) 0 Q features S Q' ∧ Layers w' n.hiddenLayers Q' ∧
      After w w' Q Q' c ∧ (outs Q features S)[Q.length - 1]? = some l ∧ Classified l cls := by
  unfold predictOne at hr
  replace hr := M.bind_eq_ok hr
  obtain ⟨acts, w1, h1, hr⟩ := hr
  have hlen : Q.length = n.hiddenLayers.len := by
    have := readSlice_length L.ptrs
    simpa using this
  have L0 : Layers w n.hiddenLayers ([] ++ Q) := L
  obtain ⟨S, Q', p, rfl, L', a⟩ := forward_layers Q (A := []) rfl hlen L0 h1
  simp only [List.nil_append] at L' a
  have hpos : 0 < Q.length := by
    have := (List.getElem?_eq_some_iff.mp hgl).1; omega
  obtain ⟨g', ids, d, e1, e2, -, f, e3, -⟩ := passes_get p hgl
  have hl : ((features :: outs Q features S)[n.numberOfLayers.toNat]?).getD [] = outputs gl.softmax gl.views d ids := by
    rw [hn, Int.toNat_natCast, show Q.length = (Q.length - 1) + 1 by omega, List.getElem?_cons_succ, e3]; rfl
  rw [hl] at hr
  have S' := L'.get e1
  have H : ∀ y ∈ g'.nodes, Handle w1.heap y.1 y.2 := fun y hy => L'.group.handle (flatMap_mem_nodes (List.mem_of_getElem? e1) hy)
  obtain ⟨ext, hext⟩ := a.layers
  have hx1 : w1.layers[last]? = some x := by
    rw [hext, List.getElem?_append_left (List.getElem?_eq_some_iff.mp hx).1]; exact hx
  have hread : readSlice w1.heap.nodeArrs x.nodes = some (g'.nodes.map Prod.fst) := by
    rw [hxn]
    have := S'.nodes
    rw [f.obj] at this
    exact this
  obtain ⟨cls', hc, hcl⟩ := argMax_class (last := last) (i := i) (w := w1) (l := outputs gl.softmax gl.views d ids) (by
    intro pair hp
    obtain ⟨id, hid, rfl⟩ := List.mem_map.mp hp
    obtain ⟨h0, y, hy, hv⟩ := forwarded_last f H hid
    refine ⟨y.1, ?_, hv⟩
    unfold getNodeById
    rw [M.bind_ok (layer_run hx1)]
    exact onHeap_run (nodePtr_run hread h0 (by rw [List.getElem?_map, hy]; rfl)))
  rw [hc] at hr
  cases hr
  exact ⟨S, Q', _, p, L', a, e3, hcl⟩

theorem predictLoop_ok [FloatOrder F] {cfg : Config F} {fuel : Nat} {c : Int} {n : Network F} {last : Ptr} {x : Layer} :
    ∀ (es : List (Example F)) {i : Nat} {count res : Int} {w w' : World F} {Q : List (State F)} {gl : State F},
      Layers w n.hiddenLayers Q → n.numberOfLayers = Q.length → Q[Q.length - 1]? = some gl → w.layers[last]? = some x →
      x.nodes = gl.obj.nodes → predictLoop cfg fuel c n last es i count w = .ok (res, w') →
      ∃ classes Q', classes.length = es.length ∧ res = count + correct es classes ∧ SameAll c Q Q' ∧ Layers w' n.hiddenLayers Q' ∧
        After w w' Q Q' c ∧
        ∀ (k : Nat) (ex : Example F) (cls : Int), es[k]? = some ex → classes[k]? = some cls →
          ∃ S l Qk Qk', SameAll c Q Qk ∧ Passes c (i + k) (Selected cfg fuel c [] n.sparsity n.numberOfLayers) 0 Qk ex.Features S Qk' ∧
            (outs Q ex.Features S)[Q.length - 1]? = some l ∧ Classified l cls
  | [], i, count, res, w, w', Q, gl, L, hn, hgl, hx, hxn, hr => by
    cases hr
    exact ⟨[], Q, rfl, by simp [correct], .refl c Q, L, After.refl _ _ _, fun k ex cls h => by simp at h⟩
  | ex :: es, i, count, res, w, w', Q, gl, L, hn, hgl, hx, hxn, hr => by
    unfold predictLoop at hr
    replace hr := M.bind_eq_ok hr
    obtain ⟨cls, w1, h1, hr⟩ := hr
    obtain ⟨S, Q1, l, p, L1, a, e1, hcl⟩ := predictOne_ok L hn hgl hx hxn h1
    have hs := passes_same p
    have hlt : Q.length - 1 < Q1.length := by rw [hs.1]; exact (List.getElem?_eq_some_iff.mp hgl).1
    have hgl1 : Q1[Q1.length - 1]? = some Q1[Q.length - 1] := by rw [hs.1]; exact List.getElem?_eq_getElem hlt
    have hobj := (hs.2 _ gl _ hgl (List.getElem?_eq_getElem hlt)).obj
    have hnodes : x.nodes = (Q1[Q.length - 1]).obj.nodes := by
      rw [hxn]
      rcases hobj with h | h
      · rw [h]
      · rw [h]
    obtain ⟨ext, hext⟩ := a.layers
    have hx1 : w1.layers[last]? = some x := by
      rw [hext, List.getElem?_append_left (List.getElem?_eq_some_iff.mp hx).1]; exact hx
    obtain ⟨classes, Q2, c1, c2, c3, c4, c5, c6⟩ := predictLoop_ok es L1 (by rw [hs.1]; exact hn) hgl1 hx1 hnodes hr
    refine ⟨cls :: classes, Q2, by simp [c1], ?_, hs.trans c3, c4, a.trans c5, ?_⟩
    · rw [c2, correct]
      by_cases hm : cls ∈ ex.Labels
      · rw [if_pos ((intSliceContains_iff _ _).mpr hm), if_pos hm]; omega
      · rw [if_neg (fun h => hm ((intSliceContains_iff _ _).mp h)), if_neg hm]; omega
    · intro k ex' cls' hk hc
      cases k with
      | zero => cases hk; cases hc; exact ⟨S, l, Q, Q1, .refl c Q, p, e1, hcl⟩
      | succ k =>
        obtain ⟨S', l', Qk, Qk', d1, d2, d3, d4⟩ := c6 k ex' cls' (by simpa using hk) (by simpa using hc)
        refine ⟨S', l', Qk, Qk', hs.trans d1, ?_, ?_, d4⟩
        · rw [show i + (k + 1) = i + 1 + k by omega]; exact d2
        · rw [outs_congr hs, hs.1] at d3; exact d3

/-- The network after `cloneIfNeeded`. -/
theorem cloneNet_ok {p p' : Ptr} {c : Int} {n : Network F} {w w' : World F} (hn : w.networks[p]? = some n)
    (hr : cloneIfNeeded p c w = .ok (p', w')) :
    w'.networks[p']? = some { n with cowId := c } ∧ w'.networks[p]? = some n ∧ (∃ ext, w' = { w with networks := w.networks ++ ext }) ∧
      (n.cowId = c → p' = p ∧ w' = w) := by
  unfold cloneIfNeeded at hr
  have hnet : network p w = .ok (n, w) := by unfold network; rw [deref_of hn]; rfl
  rw [M.bind_ok hnet] at hr
  split at hr
  · next hc =>
    unfold clone at hr
    rw [M.bind_ok hnet] at hr
    cases hr
    refine ⟨by simp, ?_, ⟨_, rfl⟩, fun h => absurd h hc⟩
    show (w.networks ++ _)[p]? = _
    rw [List.getElem?_append_left (List.getElem?_eq_some_iff.mp hn).1]; exact hn
  · next hc =>
    cases hr
    have : n.cowId = c := Decidable.not_not.mp hc
    subst this
    exact ⟨hn, hn, ⟨[], by simp⟩, fun _ => ⟨rfl, rfl⟩⟩

theorem Layers.networks {w : World F} {hidden : Slice} {Q : List (State F)} (L : Layers w hidden Q) (ns : List (Network F)) :
    Layers { w with networks := ns } hidden Q :=
  ⟨L.ptrs, fun g hg => ⟨(L.stored g hg).obj, (L.stored g hg).nodes, (L.stored g hg).order, (L.stored g hg).norm, (L.stored g hg).tables⟩,
    L.group, L.apart⟩

theorem Layers.rng {w : World F} {hidden : Slice} {Q : List (State F)} (L : Layers w hidden Q) (r m : Rng) :
    Layers { w with rng := r, mapRng := m } hidden Q :=
  ⟨L.ptrs, fun g hg => ⟨(L.stored g hg).obj, (L.stored g hg).nodes, (L.stored g hg).order, (L.stored g hg).norm, (L.stored g hg).tables⟩,
    L.group, L.apart⟩

theorem NetAt.rng {w : World F} {p : Ptr} {n : Network F} {Q : List (State F)} (N : NetAt w p n Q) (r m : Rng) :
    NetAt { w with rng := r, mapRng := m } p n Q := ⟨N.obj, N.layers.rng r m, N.count⟩

/-- Prediction on a network in memory. -/
theorem predictClass_ok [FloatOrder F] {cfg : Config F} {fuel : Nat} {ne p' : Ptr} {c : Int} {es : List (Example F)} {w w' : World F}
    {n : Network F} {Q : List (State F)} {res : Int} (N : NetAt w ne n Q) (hr : predictClass cfg fuel ne c es w = .ok ((res, p'), w')) :
    ∃ classes Q', classes.length = es.length ∧ res = correct es classes ∧ SameAll c Q Q' ∧
      NetAt w' ne n Q' ∧ NetAt w' p' { n with cowId := c } Q' ∧ w'.lshs = w.lshs ∧ w'.ints = w.ints ∧ w'.heap.floats = w.heap.floats ∧
      (n.cowId = c → p' = ne ∧ After w w' Q Q' c) ∧
      ∀ (k : Nat) (ex : Example F) (cls : Int), es[k]? = some ex → classes[k]? = some cls →
        ∃ S l Qk Qk', SameAll c Q Qk ∧ Passes c k (Selected cfg fuel c [] n.sparsity n.numberOfLayers) 0 Qk ex.Features S Qk' ∧
          (outs Q ex.Features S)[Q.length - 1]? = some l ∧ Classified l cls := by
  unfold predictClass at hr
  replace hr := M.bind_eq_ok hr
  obtain ⟨q, w1, h1, hr⟩ := hr
  obtain ⟨a1, a2, ⟨ext, rfl⟩, a4⟩ := cloneNet_ok N.obj h1
  have hnet : network q { w with networks := w.networks ++ ext } = .ok ({ n with cowId := c }, { w with networks := w.networks ++ ext }) := by
    unfold network; rw [deref_of a1]; rfl
  rw [M.bind_ok hnet] at hr
  replace hr := M.bind_eq_ok hr
  obtain ⟨last, w2, h2, hr⟩ := hr
  have L := N.layers.networks (w.networks ++ ext)
  dsimp only at h2
  by_cases hpos : 0 < Q.length
  · have hgl : Q[Q.length - 1]? = some Q[Q.length - 1] := List.getElem?_eq_getElem (by omega)
    have e : n.numberOfLayers - 1 = ((Q.length - 1 : Nat) : Int) := by rw [N.count]; omega
    rw [e, layerPtr_run L.ptrs (p := (Q[Q.length - 1]).ptr) (by rw [List.getElem?_map, hgl]; rfl)] at h2
    cases h2
    replace hr := M.bind_eq_ok hr
    obtain ⟨count, w3, h3, hr⟩ := hr
    cases hr
    obtain ⟨classes, Q', c1, c2, c3, c4, c5, c6⟩ := predictLoop_ok (n := { n with cowId := c }) es L N.count hgl (L.get hgl).obj rfl h3
    refine ⟨classes, Q', c1, by rw [c2]; omega, c3, ⟨?_, c4, ?_⟩, ⟨?_, c4, ?_⟩, c5.lshs, c5.ints, c5.floats, ?_, ?_⟩
    · rw [c5.networks]; exact a2
    · rw [c3.1]; exact N.count
    · rw [c5.networks]; exact a1
    · show n.numberOfLayers = _
      rw [c3.1]; exact N.count
    · intro hc
      obtain ⟨rfl, e⟩ := a4 hc
      rw [e] at c5
      exact ⟨rfl, c5⟩
    · intro k ex cls hk hcl
      have := c6 k ex cls hk hcl
      rwa [Nat.zero_add] at this
  · exfalso
    have e : n.numberOfLayers - 1 = -1 := by rw [N.count]; omega
    rw [e] at h2
    unfold layerPtr readCell at h2
    rw [if_neg (by omega)] at h2
    cases h2

end Goslide.Network
