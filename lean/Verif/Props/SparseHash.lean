import Verif.Proofs.SparseHash
import Verif.Props.Progress
/-
Which hash functions can be used with sparse examples: C75.
-/
set_option linter.unusedSectionVars false
namespace Goslide.Props
open Goslide Configuration Spec Spec.Network Layer Network Xcrepo
variable {F : Type} [GoFloat F]

theorem mapM_ok_mem {α β : Type} {f : α → Go β} : ∀ {l : List α} {ys : List β}, l.mapM f = .ok ys → ∀ x ∈ l, ∃ y, f x = .ok y
  | [], _, _ => by simp
  | x :: l, ys, h => by
    rw [List.mapM_cons] at h
    cases hx : f x with
    | error e => rw [hx] at h; cases h
    | ok y =>
      rw [hx, ok_bind] at h
      cases hl : l.mapM f with
      | error e => rw [hl] at h; cases h
      | ok zs =>
        intro z hz
        rcases List.mem_cons.mp hz with rfl | hz
        · exact ⟨y, hx⟩
        · exact mapM_ok_mem hl z hz

theorem bin_ok_mem {wh : Wta.WtaHash} {value : Nat → Go F} {i : Nat} : ∀ {js : List Nat} {st st' : Int × F},
    js.foldlM (Wta.binStep wh value i) st = .ok st' → ∀ j ∈ js, ∃ c v, wh.indices[i * Lsh.binSize + j]? = some c ∧ value c = .ok v
  | [], _, _, _ => by simp
  | j :: js, st, st', h => by
    rw [List.foldlM_cons] at h
    cases hs : Wta.binStep wh value i st j with
    | error e => rw [hs] at h; cases h
    | ok st1 =>
      rw [hs, ok_bind] at h
      intro k hk
      rcases List.mem_cons.mp hk with rfl | hk
      · unfold Wta.binStep at hs
        cases hg : goGet wh.indices ((i * Lsh.binSize + k : Nat) : Int) with
        | error e => rw [show Wta.binSize = Lsh.binSize from rfl, hg] at hs; cases hs
        | ok c =>
          rw [show Wta.binSize = Lsh.binSize from rfl, hg, ok_bind] at hs
          cases hv : value c with
          | error e => rw [hv] at hs; cases hs
          | ok v => exact ⟨c, v, goGet_some hg, hv⟩
      · exact bin_ok_mem h k hk

/-- The winner-takes-all hash reads the list of pairs by position: if the bins cover all inputs, it needs a pair for every input. -/
theorem C75_wta_reads_all (numHashes dim : Nat) (r : Rng) (pairs : List (Pair F)) (hcover : dim ≤ 8 * numHashes) {codes : List Int}
    (h : Wta.getHash (Wta.new numHashes dim r).1 pairs = .ok codes) : dim ≤ pairs.length := by
  refine Nat.le_of_not_lt fun hlt => ?_
  have hd : 0 < dim := by omega
  obtain ⟨hperm, hlen⟩ := C14_table_is_permutations numHashes dim hd r 0 (by
    have h1 := Wta.permLoop_length dim (Wta.permuteCount numHashes dim) (List.range dim) r (by simp)
    have h2 := Wta.permuteCount_mul numHashes dim hd
    show _ ≤ (Wta.permLoop _ _ _).1.length
    omega)
  have hmem : dim - 1 ∈ ((Wta.new numHashes dim r).1.indices.drop (0 * dim)).take dim := hperm.mem_iff.mpr (List.mem_range.mpr (by omega))
  rw [Nat.zero_mul, List.drop_zero] at hmem
  obtain ⟨q, hq⟩ := List.mem_iff_getElem?.mp hmem
  have hq' : q < dim := by
    have := (List.getElem?_eq_some_iff.mp hq).1
    rw [List.length_take] at this
    omega
  rw [List.getElem?_take_of_lt hq'] at hq
  unfold Wta.getHash at h
  obtain ⟨y, hy⟩ := mapM_ok_mem h (q / 8) (List.mem_range.mpr (by show q / 8 < numHashes; omega))
  unfold Wta.bin at hy
  cases hf : (List.range Wta.binSize).foldlM (Wta.binStep (Wta.new numHashes dim r).1 (fun c => do return (← goGet pairs (c : Int)).Value) (q / 8))
      (minInt64, Wta.floorValue) with
  | error e => rw [hf] at hy; cases hy
  | ok st =>
    obtain ⟨c, v, hc, hv⟩ := bin_ok_mem hf (q % 8) (List.mem_range.mpr (by show q % 8 < 8; omega))
    rw [show q / 8 * Lsh.binSize + q % 8 = q from Nat.div_add_mod' q 8, hq] at hc
    cases hc
    cases hg : goGet pairs ((dim - 1 : Nat) : Int) with
    | error e => rw [hg] at hv; cases hv
    | ok x =>
      have := (List.getElem?_eq_some_iff.mp (goGet_some hg)).1
      omega

/-- The densified minhash selects 30 values of the list: it needs 30 pairs. -/
theorem C75_minhash_reads_30 {dm : Minhash.DensifiedMinhash} {binIds : List Int} {pairs : List (Pair F)} {codes : List Int}
    (h : Minhash.getHashEasy dm binIds pairs [] topK = .ok codes) : 30 ≤ pairs.length := by
  refine Nat.le_of_not_lt fun hlt => ?_
  unfold Minhash.getHashEasy Minhash.getHashEasyDense Minhash.selectTop Minhash.initQueue Minhash.firstK at h
  rw [if_neg (by simp only [List.length_map, List.length_nil, topK]; omega)] at h
  cases h

-- 29 pairs are too few
example : Minhash.getHashEasy (F := Rat) (Minhash.new 1 6 (fun _ => 0) (fun _ => 0)).1 (List.replicate 30 0) (List.replicate 29 ⟨0, 1⟩) [] topK = .error .slice := by decide +kernel

/-- What the first layer needs: `m` pairs per example with winner-takes-all hashing on `dim ≤ 8 K L` inputs, 30 pairs with minhash. -/
def NeedsPairs (cfg : Config F) (a : NetArgs F) (m : Int) : Prop :=
  (cfg.HashFunction = 1 ∧ m = a.dim ∧ ∃ k l, a.k[0]? = some k ∧ a.l[0]? = some l ∧ a.dim ≤ 8 * (k * l)) ∨
    (cfg.HashFunction = 3 ∧ m = 30)

theorem needs_pairs {cfg : Config F} {a : NetArgs F} {Q : List (State F)} (hk : AllKept cfg a Q) {g : State F} (hg : Q[0]? = some g) {m : Int}
    (hn : NeedsPairs cfg a m) {pairs : List (Pair F)} {codes : List Int} (h : hashSparse cfg g.obj.hasher pairs = .ok codes) : m ≤ pairs.length := by
  obtain ⟨size, prev, ty, k, l, rp, -, -, q3, q4, -, kept, hprev, -⟩ := hk 0 g hg
  have hprev := hprev rfl
  subst hprev
  obtain ⟨v, v', hh⟩ := kept.hasher
  rcases hn with ⟨hf, rfl, k', l', e1, e2, hc⟩ | ⟨hf, rfl⟩
  · replace hf := (family_iff _).1.mpr hf
    rw [q3] at e1
    rw [q4] at e2
    cases e1
    cases e2
    unfold newHasher at hh
    rw [hf] at hh
    obtain ⟨r, hh, -⟩ := draw_ok hh
    simp only [Except.ok.injEq, Prod.mk.injEq] at hh
    unfold hashSparse at h
    rw [hf, ← hh.1] at h
    have := C75_wta_reads_all _ _ _ _ (by omega) h
    omega
  · replace hf := (family_iff _).2.2.1.mpr hf
    unfold hashSparse at h
    rw [hf] at h
    cases hg' : g.obj.hasher with
    | minhash dm b =>
      rw [hg'] at h
      have := C75_minhash_reads_30 h
      omega
    | wta x => rw [hg'] at h; cases h
    | dwta x => rw [hg'] at h; cases h
    | srp x => rw [hg'] at h; cases h

/-- C75. With winner-takes-all or minhash hashing and a first layer that is not full, a training step succeeds only on examples that list
(nearly) all features: every sparse example makes it panic. -/
theorem C75_train_needs_pairs [FloatOrder F] {cfg : Config F} (hl : cfg.LoadWeight = false) {c : Int} {a : NetArgs F} (ha : a.Typed) (hpos : 0 < a.layers)
    {sp : F} (hs : a.sparsity[0]? = some sp) (hsp : GoFloat.eq sp GoFloat.one = false) (hm : cfg.LayerMode = 1 ∨ cfg.LayerMode = 4) {m : Int}
    (hn : NeedsPairs cfg a m) {w w' : World F} {p : Ptr} (life : Life cfg c a w p) {fuel : Nat} {es : List (Example F)} {iter : Int} {rehash rebuild : Bool}
    {r : F × Ptr} (hr : processInput cfg fuel p c es iter rehash rebuild w = .ok (r, w')) : ∀ ex ∈ es, m ≤ ex.Features.length := by
  obtain ⟨n, Q, al⟩ := life.alive hl ha
  have hQ : 0 < Q.length := by
    have := al.trainable.net.count
    have := al.count
    omega
  intro ex hex
  obtain ⟨codes, h⟩ := train_hashed al (List.getElem?_eq_getElem hQ) hs hsp hm hr ex hex
  exact needs_pairs al.kept (List.getElem?_eq_getElem hQ) hn h

/-- C75. The same for predictions, which use the second half of the sparsities. -/
theorem C75_predict_needs_pairs [FloatOrder F] {cfg : Config F} (hl : cfg.LoadWeight = false) {c : Int} {a : NetArgs F} (ha : a.Typed) (hpos : 0 < a.layers)
    {sp : F} (hs : a.sparsity[a.layers.toNat]? = some sp) (hsp : GoFloat.eq sp GoFloat.one = false) (hm : cfg.LayerMode = 1 ∨ cfg.LayerMode = 4) {m : Int}
    (hn : NeedsPairs cfg a m) {w w' : World F} {p : Ptr} (life : Life cfg c a w p) {fuel : Nat} {es : List (Example F)} {r : Int × Ptr}
    (hr : predictClass cfg fuel p c es w = .ok (r, w')) : ∀ ex ∈ es, m ≤ ex.Features.length := by
  obtain ⟨n, Q, al⟩ := life.alive hl ha
  have hQ : 0 < Q.length := by
    have := al.trainable.net.count
    have := al.count
    omega
  intro ex hex
  obtain ⟨codes, h⟩ := predict_hashed al (List.getElem?_eq_getElem hQ) hs hsp hm hr ex hex
  exact needs_pairs al.kept (List.getElem?_eq_getElem hQ) hn h

namespace WtaEx

/-- One softmax node with two inputs, winner-takes-all hashing, one table of 8 buckets. -/
def cfg : Config Rat := { LayerEx.cfg 4 with HashFunction := 1 }

def args : NetArgs Rat :=
  { layers := 1, sizes := [1], types := [1], batch := 1, rate := 1 / 10, dim := 2, k := [1], l := [1], rangePow := [3], sparsity := [1 / 2, 1 / 2] }

def net : Go (Ptr × World Rat) :=
  Network.new cfg 0 args.layers args.sizes args.types args.batch args.rate args.dim args.k args.l args.rangePow args.sparsity LayerEx.w0

theorem typed : args.Typed := ⟨by
  intro j ty hj hty
  match j, hj with
  | 0, _ => cases hty; exact .inr rfl, rfl⟩

-- it can be trained on an example with both features
example : (match net with
    | .error _ => false
    | .ok (p, w) => (processInput cfg 0 p 0 [⟨[⟨0, 1⟩, ⟨1, 2⟩], [0]⟩] 0 false false w).isOk) = true := by decide +kernel

end WtaEx

/-- C75. The claim is false: winner-takes-all hashing cannot be trained on an example that lists one of two features. -/
theorem C75_sparse_false : ¬ ∀ (cfg : Config Rat) (a : NetArgs Rat) (w : World Rat) (p : Ptr) (es : List (Example Rat)),
    cfg.HashFunction ∈ [1, 2, 3, 4] → cfg.LoadWeight = false → cfg.LayerMode = 4 → a.Typed → Life cfg 0 a w p → es.length ≤ a.batch →
    (∀ ex ∈ es, (∀ x ∈ ex.Features, 0 ≤ x.Index ∧ x.Index < a.dim) ∧ ex.Labels.Nodup ∧ ∀ size ∈ a.sizes, ∀ y ∈ ex.Labels, 0 ≤ y ∧ y < size) →
    (∀ k l rp, a.k[0]? = some k → a.l[0]? = some l → a.rangePow[0]? = some rp → 3 * k ≤ rp) →
    ∃ r, processInput cfg 0 p 0 es 0 false false w = .ok r := by
  intro hall
  have h : WtaEx.net.isOk = true := by decide +kernel
  cases hn : WtaEx.net with
  | error e => rw [hn] at h; cases h
  | ok x =>
    obtain ⟨p, w⟩ := x
    have life : Life WtaEx.cfg 0 WtaEx.args w p := Life.new hn
    obtain ⟨⟨r, w'⟩, hr⟩ := hall WtaEx.cfg WtaEx.args w p [⟨[⟨1, 1⟩], [0]⟩] (by decide) rfl rfl WtaEx.typed life (by decide) (by decide) (by
      intro k l rp h1 h2 h3
      cases h1; cases h3
      decide)
    have := C75_train_needs_pairs (cfg := WtaEx.cfg) rfl WtaEx.typed (by decide) (sp := 1 / 2) rfl (by decide +kernel) (.inr rfl) (m := 2)
      (.inl ⟨rfl, rfl, 1, 1, rfl, rfl, by decide⟩) life hr _ (List.mem_singleton.mpr rfl)
    exact absurd this (by decide)

/-- C75, what does hold: with densified winner-takes-all hashing or signed random projections whose codes fit the tables, training and prediction
succeed on in-range examples with any number of features up to the number of inputs; with minhash they do from 30 features on. -/
theorem C75_sparse_partial [FloatOrder F] [FloatIntDiv F] {cfg : Config F} (hl : cfg.LoadWeight = false) (hm : cfg.LayerMode ≠ 2) {c : Int} {a : NetArgs F} (ha : a.Typed)
    (hpos : 0 < a.layers) {w : World F} {p : Ptr} (life : Life cfg c a w p) (fuel : Nat) {es : List (Example F)} (hb : es.length ≤ a.batch) :
    (LayersOk cfg a 0 → (∀ ex ∈ es, Fits cfg a 0 ex.Features ex.Labels) → ∀ iter rehash rebuild, ∃ r, processInput cfg fuel p c es iter rehash rebuild w = .ok r) ∧
    (LayersOk cfg a a.layers.toNat → (∀ ex ∈ es, Fits cfg a a.layers.toNat ex.Features []) → ∃ r, predictClass cfg fuel p c es w = .ok r) := by
  constructor
  · intro hok hfit iter rehash rebuild
    obtain ⟨w', h, -⟩ := C66_train_partial hl hm ha hok life fuel iter rehash rebuild hb hfit
    exact ⟨_, h⟩
  · intro hok hfit
    obtain ⟨m, w', h, -⟩ := C66_predict hl hm ha hpos hok life fuel hb hfit
    exact ⟨_, h⟩

end Goslide.Props
