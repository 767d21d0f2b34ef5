import Verif.Proofs.NetworkFinish
import Verif.Proofs.NetworkLife
import Verif.Props.Wta
/-
Every example of a successful call has been hashed by the first layer, if that layer is sparse.
-/
set_option linter.unusedSectionVars false
namespace Goslide.Network
open Configuration Lsh Layer Node Xcrepo Spec.Network
variable {F : Type} [GoFloat F]

theorem select_hashed {cfg : Config F} {fuel : Nat} {x : Layer} {cur : List (Pair F)} {label : List Int} {sp : F} {w w' : World F} {r : Int × Option (List Int)}
    (hsp : GoFloat.eq sp GoFloat.one = false) (hm : cfg.LayerMode = 1 ∨ cfg.LayerMode = 4)
    (h : select cfg fuel x cur label sp w = .ok (r, w')) : ∃ codes, hashSparse cfg x.hasher cur = .ok codes := by
  have key : ∀ {s : LSH} {l : List (List Int)}, candidates cfg x.hasher s cur = .ok l → ∃ codes, hashSparse cfg x.hasher cur = .ok codes := by
    intro s l h
    unfold candidates at h
    cases hc : hashSparse cfg x.hasher cur with
    | ok codes => exact ⟨codes, rfl⟩
    | error e => rw [hc] at h; cases h
  unfold select at h
  dsimp only at h
  rw [if_neg (by rw [hsp]; simp)] at h
  rcases hm with hm | hm
  · rw [if_pos hm] at h
    obtain ⟨s, w1, -, h⟩ := M.bind_eq_ok h
    obtain ⟨l, w2, h, -⟩ := M.bind_eq_ok h
    exact key (lift_ok h).1
  · rw [if_neg (by omega), if_neg (by omega), if_neg (by omega), if_pos hm] at h
    obtain ⟨s, w1, -, h⟩ := M.bind_eq_ok h
    obtain ⟨l, w2, h, -⟩ := M.bind_eq_ok h
    exact key (lift_ok h).1

theorem passes_hashed {cfg : Config F} {fuel : Nat} {c : Int} {label : List Int} {sparsity : List F} {off i : Nat} {Q Q' : List (State F)}
    {data : List (Pair F)} {S : List (List Int)} (p : Passes c i (Selected cfg fuel c label sparsity off) 0 Q data S Q') {g : State F} (hg : Q[0]? = some g)
    {sp : F} (hs : sparsity[off]? = some sp) (hsp : GoFloat.eq sp GoFloat.one = false) (hm : cfg.LayerMode = 1 ∨ cfg.LayerMode = 4) :
    ∃ codes, hashSparse cfg g.obj.hasher data = .ok codes := by
  cases p with
  | nil => cases hg
  | cons hsel _ _ =>
    cases hg
    obtain ⟨sp', w, found, h1, -, ids, w', h2, -⟩ := hsel
    have : sp' = sp := by
      have := goGet_some (j := off) (by simpa using h1)
      rw [hs] at this
      exact (Option.some.inj this).symm
    subst this
    exact select_hashed hsp hm h2

theorem trainLoop_hashed {cfg : Config F} {fuel : Nat} {c : Int} {n : Network F} {lr : F} {sp : F} (hsp0 : n.sparsity[0]? = some sp)
    (hsp : GoFloat.eq sp GoFloat.one = false) (hm : cfg.LayerMode = 1 ∨ cfg.LayerMode = 4) :
    ∀ (es : List (Example F)) {i : Nat} {w w' : World F} {Q : List (State F)} {u : Unit} (_ : Mem w n.hiddenLayers Q c)
      (_ : n.numberOfLayers = Q.length) (_ : LastSoft Q) (_ : FitsV cfg.UseAdam (Q.map State.views))
      (_ : trainLoop cfg fuel c n lr es i w = .ok (u, w')) {g : State F} (_ : Q[0]? = some g),
    ∀ ex ∈ es, ∃ codes, hashSparse cfg g.obj.hasher ex.Features = .ok codes
  | [], i, w, w', Q, u, m, _, _, _, hr, g, _ => by simp
  | ex :: es, i, w, w', Q, u, m, hN, hs, hfit, hr, g, hg => by
    unfold trainLoop at hr
    replace hr := M.bind_eq_ok hr
    obtain ⟨acts, w1, h1, hr⟩ := hr
    replace hr := M.bind_eq_ok hr
    obtain ⟨u1, w2, h2, hr⟩ := hr
    obtain ⟨S, Q1, a1, m1, q1, f1, d1, v1⟩ := example_spec m hN hs hfit h1 h2
    intro y hy
    rcases List.mem_cons.mp hy with rfl | hy
    · have hlen : n.hiddenLayers.len = Q.length := by
        have := readSlice_length m.layers.ptrs
        rw [← this, List.length_map]
      rw [hlen] at h1
      obtain ⟨S, Q1, p, -⟩ := forward_mem (off := 0) m h1
      exact passes_hashed p hg hsp0 hsp hm
    · obtain ⟨g', hg', e⟩ := frame_get f1 hg
      have := trainLoop_hashed hsp0 hsp hm es m1 (by rw [hN, frame_length f1]) (lastSoft_frame f1 hs) (fits_of_dims d1 hfit) hr hg' y hy
      rwa [(frame_eqs e).2.1] at this

/-- A successful call has run the training loop, on layers that differ at most in the padding order. -/
theorem processInput_loop {cfg : Config F} {fuel : Nat} {p : Ptr} {c : Int} {n : Network F} {Q : List (State F)} {w w' : World F}
    {es : List (Example F)} {iter : Int} {rehash rebuild : Bool} {r : F × Ptr} (N : NetAt w p n Q) (o : OwnedBy w Q c) (hc : n.cowId = c)
    (hr : processInput cfg fuel p c es iter rehash rebuild w = .ok (r, w')) :
    ∃ (w1 w2 : World F) (Q1 : List (State F)) (u : Unit), Mem w1 n.hiddenLayers Q1 c ∧ Q1.length = Q.length ∧
      (∀ (i : Nat) (g : State F), Q[i]? = some g → ∃ g', Q1[i]? = some g' ∧ Reordered g g') ∧
      trainLoop cfg fuel c n (stepSize cfg n.learningRate iter) es 0 w1 = .ok (u, w2) := by
  unfold processInput at hr
  have hcl : cloneIfNeeded p c w = .ok (p, w) := by
    unfold cloneIfNeeded
    rw [M.bind_ok (network_run N.obj), if_neg (by omega)]
    rfl
  rw [M.bind_ok hcl, M.bind_ok (network_run N.obj)] at hr
  generalize stepSize cfg n.learningRate iter = lr at hr ⊢
  have same : ∃ Q1, Mem w n.hiddenLayers Q1 c ∧ Q1.length = Q.length ∧
      ∀ (i : Nat) (g : State F), Q[i]? = some g → ∃ g', Q1[i]? = some g' ∧ Reordered g g' :=
    ⟨Q, ⟨N.layers, o⟩, rfl, fun i g hg => ⟨g, hg, ⟨g.order, .refl _, rfl⟩⟩⟩
  by_cases h : iter.tmod 6946 = 6945
  · simp only [if_pos h] at hr
    obtain ⟨u1, w1, r1, hr⟩ := M.bind_eq_ok hr
    obtain ⟨u2, w2, r2, -⟩ := M.bind_eq_ok hr
    have step : ∃ Q1, Mem w1 n.hiddenLayers Q1 c ∧ Q1.length = Q.length ∧
        ∀ (i : Nat) (g : State F), Q[i]? = some g → ∃ g', Q1[i]? = some g' ∧ Reordered g g' := by
      unfold updateRandom at r1
      have e : (List.range (n.numberOfLayers - 1).toNat).map (fun (i : Nat) => (i : Int) + 1) =
          (List.range' 1 (n.numberOfLayers - 1).toNat).map (fun (i : Nat) => (i : Int)) := by
        rw [List.range'_eq_map_range, List.map_map]
        apply List.map_congr_left
        intro a _
        simp only [Function.comp]
        omega
      rw [e] at r1
      by_cases h0 : Q.length = 0
      · have : (n.numberOfLayers - 1).toNat = 0 := by rw [N.count, h0]; rfl
        rw [this] at r1
        cases r1
        exact same
      · obtain ⟨Q1, m1, -, l1, h1⟩ := updateRandom_spec _ _ ⟨N.layers, o⟩ (by rw [N.count]; omega) r1
        exact ⟨Q1, m1, l1, h1⟩
    obtain ⟨Q1, m1, l1, h1⟩ := step
    exact ⟨w1, w2, Q1, u2, m1, l1, h1, r2⟩
  · simp only [if_neg h] at hr
    obtain ⟨Q1, m1, l1, h1⟩ := same
    obtain ⟨u2, w2, r2, -⟩ := M.bind_eq_ok hr
    exact ⟨w, w2, Q1, u2, m1, l1, h1, r2⟩

/-- All examples of a successful training step have been hashed by the first layer. -/
theorem train_hashed {cfg : Config F} {fuel : Nat} {c : Int} {a : NetArgs F} {w w' : World F} {p : Ptr} {n : Network F} {Q : List (State F)}
    {es : List (Example F)} {iter : Int} {rehash rebuild : Bool} {r : F × Ptr} (al : Alive cfg c a w p n Q) {g : State F} (hg : Q[0]? = some g) {sp : F}
    (hs : a.sparsity[0]? = some sp) (hsp : GoFloat.eq sp GoFloat.one = false) (hm : cfg.LayerMode = 1 ∨ cfg.LayerMode = 4)
    (hr : processInput cfg fuel p c es iter rehash rebuild w = .ok (r, w')) :
    ∀ ex ∈ es, ∃ codes, hashSparse cfg g.obj.hasher ex.Features = .ok codes := by
  obtain ⟨w1, w2, Q1, u, m, l1, h1, hl⟩ := processInput_loop al.trainable.net al.trainable.owned al.trainable.cow hr
  have hget : ∀ (i : Nat) (g' : State F), Q1[i]? = some g' → ∃ g, Q[i]? = some g ∧ Reordered g g' := by
    intro i g' hg'
    have hlt : i < Q.length := by have := (List.getElem?_eq_some_iff.mp hg').1; omega
    obtain ⟨g2, a, b⟩ := h1 i _ (List.getElem?_eq_getElem hlt)
    rw [hg'] at a
    cases a
    exact ⟨_, List.getElem?_eq_getElem hlt, b⟩
  obtain ⟨g1, hg1, o, -, rfl⟩ := h1 0 g hg
  refine trainLoop_hashed (g := { g with order := o }) (by rw [al.sparsity]; exact hs) hsp hm es m (by rw [al.trainable.net.count, l1]) ?_ ?_ hl hg1
  · intro g' hg'
    rw [l1] at hg'
    obtain ⟨g2, hg2, o2, -, rfl⟩ := hget _ g' hg'
    exact al.trainable.shaped.last g2 hg2
  · intro vs hvs v hv ha
    obtain ⟨g', hg', rfl⟩ := List.mem_map.mp hvs
    obtain ⟨i, hi⟩ := List.mem_iff_getElem?.mp hg'
    obtain ⟨g2, hg2, o2, -, rfl⟩ := hget _ g' hi
    exact (al.trainable.shaped.fit g2 (List.mem_of_getElem? hg2) v hv ha).2.2

/-- All examples of a successful prediction have been hashed by the first layer. -/
theorem predict_hashed [FloatOrder F] {cfg : Config F} {fuel : Nat} {c : Int} {a : NetArgs F} {w w' : World F} {p : Ptr} {n : Network F} {Q : List (State F)}
    {es : List (Example F)} {r : Int × Ptr} (al : Alive cfg c a w p n Q) {g : State F} (hg : Q[0]? = some g) {sp : F}
    (hs : a.sparsity[a.layers.toNat]? = some sp) (hsp : GoFloat.eq sp GoFloat.one = false) (hm : cfg.LayerMode = 1 ∨ cfg.LayerMode = 4)
    (hr : predictClass cfg fuel p c es w = .ok (r, w')) :
    ∀ ex ∈ es, ∃ codes, hashSparse cfg g.obj.hasher ex.Features = .ok codes := by
  intro ex hex
  obtain ⟨m, q⟩ := r
  obtain ⟨classes, Q', hlen, -, -, -, -, -, -, -, -, h⟩ := predictClass_ok al.trainable.net hr
  obtain ⟨k, hk⟩ := List.mem_iff_getElem?.mp hex
  have hlt := (List.getElem?_eq_some_iff.mp hk).1
  obtain ⟨S, l, Qk, Qk', hsame, hp, -⟩ := h k ex _ hk (List.getElem?_eq_getElem (by omega))
  have h0 : 0 < Qk.length := by
    have := (List.getElem?_eq_some_iff.mp hg).1
    have := hsame.1
    omega
  have hg' := List.getElem?_eq_getElem h0
  have hsm := hsame.2 0 g _ hg hg'
  have hn : n.numberOfLayers = (a.layers.toNat : Int) := by
    have := al.trainable.net.count
    rw [al.count] at this ⊢
    omega
  rw [hn, al.sparsity] at hp
  have := passes_hashed hp hg' hs hsp hm
  rcases hsm.obj with e | e <;> rwa [e] at this

end Goslide.Network
