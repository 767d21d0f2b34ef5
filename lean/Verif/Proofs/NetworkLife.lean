import Verif.Proofs.NetworkShape
/-
What holds of a network during its life: `New`, then training steps and predictions by the owner.
-/
set_option linter.unusedSectionVars false
namespace Goslide.Network
open Goslide Node Lsh Configuration Spec.Node Spec.Network Layer Xcrepo
variable {F : Type} [GoFloat F]

/-- The operation enters ids from `0, …, n-1` only. -/
def OpIn (n : Nat) : Op → Prop
  | .add _ id => 0 ≤ id ∧ id < n
  | .addSingle _ _ id => 0 ≤ id ∧ id < n
  | .clear => True

/-- What is kept of a layer built with these arguments. -/
structure Kept (cfg : Config F) (size prev ty k l rp : Int) (g : State F) : Prop where
  nodes : (g.nodes.length : Int) = size
  oTy : g.obj.nodeType = ty
  oK : g.obj.k = k
  oL : g.obj.l = l
  oPrev : g.obj.previousLayerNumOfNodes = prev
  pos : 0 ≤ k ∧ 0 ≤ l ∧ 0 ≤ rp
  order : g.order.Perm ((List.range g.nodes.length).map (fun (i : Nat) => (i : Int)))
  hasher : ∃ v v' : World F, newHasher cfg (k * l).toNat prev.toNat v = .ok (g.obj.hasher, v')
  tables : ∃ (s0 : LSH) (r r' : Rng) (ops : List Op), Lsh.new k.toNat l.toNat rp.toNat r = .ok (s0, r') ∧
    Lsh.run s0 ops = .ok g.tables ∧ ∀ op ∈ ops, OpIn g.nodes.length op
  topK : 0 < size → hashFunctionOf cfg.HashFunction = .densifiedMinhash → 30 ≤ prev

theorem adds_in (n : Nat) (I : Nat → List Int) : ∀ op ∈ (List.range n).map (fun j => Op.add (I j) (j : Int)), OpIn n op := by
  intro op h
  obtain ⟨j, hj, rfl⟩ := List.mem_map.mp h
  have := List.mem_range.mp hj
  exact ⟨by omega, by omega⟩

theorem indexOf_minhash {cfg : Config F} {hasher : Hasher} {s : LSH} {ws spare : List F} {I : List Int}
    (hf : hashFunctionOf cfg.HashFunction = .densifiedMinhash) (h : indexOf cfg hasher s ws spare = .ok I) : 30 ≤ ws.length + spare.length := by
  unfold indexOf hashDense at h
  rw [hf] at h
  cases hasher with
  | minhash d b =>
    dsimp only at h
    apply Classical.byContradiction
    intro hno
    have : Minhash.getHashEasyDense d b ws spare topK = .error .slice := by
      unfold Minhash.getHashEasyDense Minhash.selectTop Minhash.initQueue Minhash.firstK
      rw [if_neg (show ¬ topK ≤ _ from hno)]
      rfl
    rw [this] at h
    cases h
  | wta _ => cases h
  | dwta _ => cases h
  | srp _ => cases h

/-- Among the hash functions only minhash looks behind the slice, and not if the slice is long enough. -/
theorem indexOf_spare {cfg : Config F} {hasher : Hasher} {s : LSH} {ws : List F} (spare spare' : List F)
    (h : hashFunctionOf cfg.HashFunction = .densifiedMinhash → 30 ≤ ws.length) : indexOf cfg hasher s ws spare = indexOf cfg hasher s ws spare' := by
  unfold indexOf hashDense
  cases hf : hashFunctionOf cfg.HashFunction with
  | densifiedMinhash =>
    have h := h hf
    cases hasher with
    | minhash d b =>
      dsimp only
      have : ∀ sp : List F, Minhash.firstK ws sp topK = .ok (ws.take topK) := by
        intro sp
        unfold Minhash.firstK
        rw [if_pos (show topK ≤ _ from by unfold topK; omega), List.take_append_of_le_length (by unfold topK; omega)]
      unfold Minhash.getHashEasyDense Minhash.selectTop Minhash.initQueue
      rw [this, this]
    | wta _ => rfl
    | dwta _ => rfl
    | srp _ => rfl
  | wta => cases hasher <;> rfl
  | densifiedWta => cases hasher <;> rfl
  | sparseRandomProjection => cases hasher <;> rfl
  | other x => cases hasher <;> rfl

theorem kept_of_built {cfg : Config F} {c size prev ty b k l rp : Int} {w w' : World F} {P : Plan F} {g : State F}
    (B : Built cfg c size prev ty b k l rp w w' P g) : Kept cfg size prev ty k l rp g := by
  have hlen : g.nodes.length = P.n := by rw [B.nodes, Plan.nodes, List.length_map, List.length_range]
  obtain ⟨s0, r, r', I, h1, h2, h3⟩ := B.tables
  refine ⟨by rw [hlen]; exact B.pN, B.oTy, B.oK, B.oL, B.oPrev, B.pos, by rw [hlen]; exact B.order, B.hasher,
    ⟨s0, r, r', _, h1, h3, by rw [hlen]; exact adds_in _ _⟩, ?_⟩
  intro hs hf
  have hn : 0 < P.n := by have := B.pN; omega
  have := indexOf_minhash hf (h2 (P.n - 1) (by omega))
  have e1 : ((P.ws.drop (P.p * (P.n - 1))).take P.p).length = P.p := by
    have : P.p * (P.n - 1) + P.p ≤ P.n * P.p := mul_fit (by omega)
    rw [List.length_take, List.length_drop, B.ws]
    omega
  have e2 : (P.ws.drop (P.p * (P.n - 1) + P.p)).length = 0 := by
    have : P.p * (P.n - 1) + P.p = P.n * P.p := by
      obtain ⟨m, hm⟩ : ∃ m, P.n = m + 1 := ⟨P.n - 1, by omega⟩
      rw [hm, Nat.add_sub_cancel, Nat.mul_comm, Nat.add_mul, Nat.one_mul]
    rw [List.length_drop, B.ws]
    omega
  have e3 : (P.params (P.n - 1)).weights.length = P.p := e1
  rw [e3, e2] at this
  have := B.pP
  omega

theorem Kept.trained {cfg : Config F} {size prev ty k l rp : Int} {s rh rb : Bool} {g g' : State F} (h : Kept cfg size prev ty k l rp g)
    (t : Trained cfg s rh rb g g') : Kept cfg size prev ty k l rp g' := by
  have hlen : g'.nodes.length = g.nodes.length := by simpa using congrArg List.length t.ptrs
  have e := t.obj
  refine ⟨by rw [hlen]; exact h.nodes, by rw [e]; exact h.oTy, by rw [e]; exact h.oK, by rw [e]; exact h.oL, by rw [e]; exact h.oPrev, h.pos,
    by rw [hlen]; exact t.perm.trans h.order, ?_, ?_, h.topK⟩
  · have := t.hasher
    by_cases hb : rb = true
    · rw [if_pos hb] at this
      obtain ⟨v, v', hv⟩ := this
      rw [h.oK, h.oL, h.oPrev] at hv
      exact ⟨v, v', hv⟩
    · rw [if_neg hb] at this
      rw [this]
      exact h.hasher
  · obtain ⟨s0, r, r', ops, h1, h2, h3⟩ := h.tables
    have := t.tables
    rw [hlen]
    by_cases hb : rh = true
    · rw [if_pos hb] at this
      obtain ⟨I, hr, -⟩ := this
      have hvl : g'.views.length = g.nodes.length := by unfold State.views; rw [List.length_map, hlen]
      rw [hvl] at hr
      refine ⟨s0, r, r', ops ++ (Op.clear :: (List.range g.nodes.length).map (fun i => Op.add (I i) (i : Int))), h1, ?_, ?_⟩
      · rw [run_append, h2, ok_bind, run_cons]
        exact hr
      · intro op hop
        rcases List.mem_append.mp hop with hop | hop
        · exact h3 op hop
        · rcases List.mem_cons.mp hop with rfl | hop
          · exact trivial
          · exact adds_in _ _ op hop
    · rw [if_neg hb] at this
      rw [this]
      exact ⟨s0, r, r', ops, h1, h2, h3⟩

theorem Kept.same {cfg : Config F} {size prev ty k l rp : Int} {c : Int} {g g' : State F} (h : Kept cfg size prev ty k l rp g)
    (t : SameParams c g g') : Kept cfg size prev ty k l rp g' := by
  have hlen : g'.nodes.length = g.nodes.length := by
    have := congrArg List.length t.params
    unfold State.views at this
    simpa using this
  have e : g'.obj.nodeType = g.obj.nodeType ∧ g'.obj.k = g.obj.k ∧ g'.obj.l = g.obj.l ∧ g'.obj.previousLayerNumOfNodes = g.obj.previousLayerNumOfNodes ∧
      g'.obj.hasher = g.obj.hasher := by
    rcases t.obj with e | e
    · rw [e]; exact ⟨rfl, rfl, rfl, rfl, rfl⟩
    · rw [e]; exact ⟨rfl, rfl, rfl, rfl, rfl⟩
  obtain ⟨e1, e2, e3, e4, e5⟩ := e
  exact ⟨by rw [hlen]; exact h.nodes, by rw [e1]; exact h.oTy, by rw [e2]; exact h.oK, by rw [e3]; exact h.oL, by rw [e4]; exact h.oPrev, h.pos,
    by rw [hlen, t.order]; exact h.order, by rw [e5]; exact h.hasher, by rw [t.tables, hlen]; exact h.tables, h.topK⟩

/-- What holds of all layers. -/
def AllKept (cfg : Config F) (a : NetArgs F) (Q : List (State F)) : Prop :=
  ∀ (j : Nat) (g : State F), Q[j]? = some g → ∃ size prev ty k l rp, a.sizes[j]? = some size ∧ a.types[j]? = some ty ∧ a.k[j]? = some k ∧
    a.l[j]? = some l ∧ a.rangePow[j]? = some rp ∧ Kept cfg size prev ty k l rp g ∧ (j = 0 → prev = a.dim) ∧
    (∀ i, j = i + 1 → a.sizes[i]? = some prev)

/-- What holds during the life of a network. -/
structure Alive (cfg : Config F) (c : Int) (a : NetArgs F) (w : World F) (p : Ptr) (n : Network F) (Q : List (State F)) : Prop where
  trainable : Trainable cfg a.batch.toNat a.dim.toNat c w p n Q
  rate : n.learningRate = a.rate
  count : n.numberOfLayers = a.layers
  sparsity : n.sparsity = a.sparsity
  len : Q.length ≤ a.sparsity.length
  kept : AllKept cfg a Q

theorem AllKept.step {cfg : Config F} {a : NetArgs F} {Q Q' : List (State F)} (h : AllKept cfg a Q) (hl : Q'.length = Q.length)
    (hk : ∀ (j : Nat) (g g' : State F), Q[j]? = some g → Q'[j]? = some g' → ∀ size prev ty k l rp, Kept cfg size prev ty k l rp g → Kept cfg size prev ty k l rp g') :
    AllKept cfg a Q' := by
  intro j g' hg'
  have hlt := (List.getElem?_eq_some_iff.mp hg').1
  have hg := List.getElem?_eq_getElem (l := Q) (i := j) (by omega)
  obtain ⟨size, prev, ty, k, l, rp, q1, q2, q3, q4, q5, hkept, q6⟩ := h j _ hg
  exact ⟨size, prev, ty, k, l, rp, q1, q2, q3, q4, q5, hk j _ g' hg hg' _ _ _ _ _ _ hkept, q6⟩

theorem Alive.step_full {cfg : Config F} {fuel : Nat} {c : Int} {a : NetArgs F} {w w' : World F} {p : Ptr} {n : Network F} {Q : List (State F)}
    {es : List (Example F)} {iter : Int} {rehash rebuild : Bool} {r : F × Ptr} (h : Alive cfg c a w p n Q)
    (hr : processInput cfg fuel p c es iter rehash rebuild w = .ok (r, w')) :
    r = (GoFloat.zero, p) ∧ ∃ T Q', T.length = es.length ∧ (∀ (k : Nat) (S : List (List Int)), T[k]? = some S → TrainedOn n.sparsity Q k S ∧
      ∀ ex, es[k]? = some ex → Picked cfg n.sparsity Q ex S) ∧ Alive cfg c a w' p n Q' ∧
      Q'.map State.views = (batchV cfg.UseAdam (stepSize cfg n.learningRate iter) (Q.map State.softmax) 0 es T (Q.map State.views)).map
        (List.map (finishView cfg.UseAdam (stepSize cfg n.learningRate iter))) ∧
      Q'.length = Q.length ∧ ∀ (j : Nat) (g : State F), Q[j]? = some g → ∃ g' sp, Q'[j]? = some g' ∧ n.sparsity[j]? = some sp ∧
        Trained cfg (decide (iter.tmod 6946 = 6945)) (rehash && GoFloat.lt sp GoFloat.one) (rebuild && GoFloat.lt sp GoFloat.one) g g' := by
  obtain ⟨e, T, Q', lT, aT, t', hv, hl, hj⟩ := h.trainable.step_full hr
  refine ⟨e, T, Q', lT, aT, ⟨t', h.rate, h.count, h.sparsity, by rw [hl]; exact h.len, h.kept.step hl ?_⟩, hv, hl, hj⟩
  intro j g g' hg hg' size prev ty k l rp hk
  obtain ⟨g2, sp, h1, -, tr⟩ := hj j g hg
  rw [hg'] at h1
  cases h1
  exact hk.trained tr

theorem Alive.step {cfg : Config F} {fuel : Nat} {c : Int} {a : NetArgs F} {w w' : World F} {p : Ptr} {n : Network F} {Q : List (State F)}
    {es : List (Example F)} {iter : Int} {rehash rebuild : Bool} {r : F × Ptr} (h : Alive cfg c a w p n Q)
    (hr : processInput cfg fuel p c es iter rehash rebuild w = .ok (r, w')) :
    r = (GoFloat.zero, p) ∧ ∃ T Q', T.length = es.length ∧ (∀ (k : Nat) (S : List (List Int)), T[k]? = some S → TrainedOn n.sparsity Q k S) ∧ Alive cfg c a w' p n Q' ∧
      Q'.map State.views = (batchV cfg.UseAdam (stepSize cfg n.learningRate iter) (Q.map State.softmax) 0 es T (Q.map State.views)).map
        (List.map (finishView cfg.UseAdam (stepSize cfg n.learningRate iter))) ∧
      Q'.length = Q.length ∧ ∀ (j : Nat) (g : State F), Q[j]? = some g → ∃ g' sp, Q'[j]? = some g' ∧ n.sparsity[j]? = some sp ∧
        Trained cfg (decide (iter.tmod 6946 = 6945)) (rehash && GoFloat.lt sp GoFloat.one) (rebuild && GoFloat.lt sp GoFloat.one) g g' := by
  obtain ⟨e, T, Q', l, a, r⟩ := h.step_full hr
  exact ⟨e, T, Q', l, fun k S h => (a k S h).1, r⟩

theorem Alive.predict [FloatOrder F] {cfg : Config F} {fuel : Nat} {c : Int} {a : NetArgs F} {w w' : World F} {p p' : Ptr} {n : Network F} {Q : List (State F)}
    {es : List (Example F)} {res : Int} (h : Alive cfg c a w p n Q) (hr : predictClass cfg fuel p c es w = .ok ((res, p'), w')) :
    p' = p ∧ ∃ Q', Alive cfg c a w' p n Q' ∧ SameAll c Q Q' := by
  obtain ⟨e, Q', t', s⟩ := h.trainable.predict hr
  exact ⟨e, Q', ⟨t', h.rate, h.count, h.sparsity, by rw [s.1]; exact h.len, h.kept.step s.1
    (fun j g g' hg hg' _ _ _ _ _ _ hk => hk.same (s.2 j g g' hg hg'))⟩, s⟩

theorem Alive.new {cfg : Config F} (hl : cfg.LoadWeight = false) {c : Int} {a : NetArgs F} (ha : a.Typed) {w w' : World F} {p : Ptr}
    (hr : Network.new cfg c a.layers a.sizes a.types a.batch a.rate a.dim a.k a.l a.rangePow a.sparsity w = .ok (p, w')) :
    ∃ n Q, Alive cfg c a w' p n Q := by
  obtain ⟨n, Q, t, e1, e2, e3, hb⟩ := new_trainable hl hr ha.types ha.last
  refine ⟨n, Q, t, e1, e2, e3, ?_, ?_⟩
  · cases hq : Q.length with
    | zero => omega
    | succ m =>
      obtain ⟨_, -, -, -, h⟩ := hb m _ (List.getElem?_eq_getElem (by omega))
      omega
  · intro j g hg
    obtain ⟨prev, ⟨size, ty, k, l, rp, P, w1, w2, q1, q2, q3, q4, q5, B⟩, h0, h1, -⟩ := hb j g hg
    exact ⟨size, prev, ty, k, l, rp, q1, q2, q3, q4, q5, kept_of_built B, h0, h1⟩

theorem Alive.draws {cfg : Config F} {c : Int} {a : NetArgs F} {w : World F} {p : Ptr} {n : Network F} {Q : List (State F)} (h : Alive cfg c a w p n Q)
    (r m : Rng) (s : Nat → F) (f : Nat → Nat → BitVec 64) : Alive cfg c a { w with rng := r, mapRng := m, norms := s, hashes := f } p n Q := by
  obtain ⟨⟨⟨N1, ⟨L1, L2, L3, L4⟩, N3⟩, o, t3, t4⟩, h2, h3, h4, h5, h6⟩ := h
  refine ⟨⟨⟨N1, ⟨L1, fun g hg => ?_, L3, L4⟩, N3⟩, o, t3, t4⟩, h2, h3, h4, h5, h6⟩
  have S := L2 g hg
  exact ⟨S.obj, S.nodes, S.order, S.norm, S.tables⟩

theorem _root_.Goslide.Spec.Network.Life.alive [FloatOrder F] {cfg : Config F} (hl : cfg.LoadWeight = false) {c : Int} {a : NetArgs F} (ha : a.Typed) {w : World F} {p : Ptr}
    (h : Life cfg c a w p) : ∃ n Q, Alive cfg c a w p n Q := by
  induction h with
  | new h => exact Alive.new hl ha h
  | train _ hr ih =>
    obtain ⟨n, Q, al⟩ := ih
    obtain ⟨e, T, Q', -, -, al', -⟩ := al.step hr
    have e := congrArg Prod.snd e
    dsimp only at e
    rw [e]
    exact ⟨n, Q', al'⟩
  | predict _ hr ih =>
    obtain ⟨n, Q, al⟩ := ih
    obtain ⟨rfl, Q', al', -⟩ := al.predict hr
    exact ⟨n, Q', al'⟩
  | draws _ ih =>
    obtain ⟨n, Q, al⟩ := ih
    exact ⟨n, Q, al.draws _ _ _ _⟩

end Goslide.Network
