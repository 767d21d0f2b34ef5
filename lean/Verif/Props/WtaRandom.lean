import Verif.Props.Random
import Verif.Props.Dwta
import Verif.Props.Wta
import Verif.Proofs.PermTables
/-
C84: how the codes of the two winner-take-all hashes are distributed over the draws of `New`.
-/
namespace Goslide.Props
open Spec GoHeap
variable {F : Type} [GoFloat F]

/-- Exactly one outcome of the draws gives a sequence of permutations. -/
theorem permsList_count (dim p : Nat) (r : Rng) (perms : List (List Nat)) (hl : perms.length = p) (hp : ∀ τ ∈ perms, τ.Perm (List.range dim)) :
    countOutcomes (wtaBounds dim p) (fun ds => permsList p (List.range dim) (fed ds r) = perms) = 1 := by
  rw [← permLoop_count dim r p (List.range dim) perms hl (List.Perm.refl _) hp]
  refine countOutcomes_congr (fun ds => ?_)
  rw [permLoop_flatten]
  refine ⟨fun h => by rw [h], fun h => flatten_inj dim _ _ ?_ ?_ ?_ h⟩
  · rw [permsList_length, hl]
  · intro a ha
    simpa using (permsList_perm p _ _ (List.Perm.refl _) a ha).length_eq
  · intro b hb
    simpa using (hp b hb).length_eq

/-- Exchanging two places of one of the permutations does not change how often an event happens. -/
theorem count_swap (dim p : Nat) (r : Rng) (q x y : Nat) (hx : x < dim) (hy : y < dim) (event : List (List Nat) → Prop) [DecidablePred event] :
    countOutcomes (wtaBounds dim p) (fun ds => event ((permsList p (List.range dim) (fed ds r)).modify q (swapAt · x y))) =
    countOutcomes (wtaBounds dim p) (fun ds => event (permsList p (List.range dim) (fed ds r))) := by
  refine countOutcomes_involution (wtaBounds dim p) (fun ds => permsList p (List.range dim) (fed ds r))
    (fun perms => perms.length = p ∧ ∀ τ ∈ perms, τ.Perm (List.range dim)) ?_ ?_ (fun perms => perms.modify q (swapAt · x y)) ?_ ?_ event
  · intro ds _
    exact ⟨permsList_length _ _ _, permsList_perm _ _ _ (List.Perm.refl _)⟩
  · rintro perms ⟨h1, h2⟩
    exact permsList_count dim p r perms h1 h2
  · rintro perms ⟨h1, h2⟩
    refine ⟨by rw [List.length_modify, h1], fun τ hτ => ?_⟩
    obtain ⟨k, hk⟩ := List.mem_iff_getElem?.mp hτ
    rw [List.getElem?_modify] at hk
    cases hg : perms[k]? with
    | none => rw [hg] at hk; simp at hk
    | some τ0 =>
      rw [hg] at hk
      have h0 := h2 τ0 (List.mem_of_getElem? hg)
      simp only [Option.map_eq_map, Option.map_some, Option.some.injEq] at hk
      split at hk
      · rw [← hk]; exact (swapAt_perm _ _ _).trans h0
      · rw [← hk]; exact h0
  · rintro perms ⟨h1, h2⟩
    refine List.ext_getElem? (fun k => ?_)
    rw [List.getElem?_modify, List.getElem?_modify]
    cases hg : perms[k]? with
    | none => rfl
    | some τ0 =>
      have h0 : τ0.length = dim := by simpa using (h2 τ0 (List.mem_of_getElem? hg)).length_eq
      simp only [Option.map_eq_map, Option.map_some, Option.some.injEq]
      split
      · exact swapAt_swapAt τ0 x y (by omega) (by omega)
      · rfl

/-- Code `b` of the dense vector `val` under a new table. -/
def wtaCode (numHashes dim : Nat) (val : Nat → F) (b : Nat) (r : Rng) : Option Int :=
  match Wta.getHashDense (Wta.new numHashes dim r).1 ((List.range dim).map val) with
  | .ok codes => codes[b]?
  | .error _ => none

/-- Code `b` of the dense vector `val` under a new densified table. -/
def dwtaCode (numHashes dim : Nat) (val : Nat → F) (b : Nat) (r : Rng) : Option Int :=
  match Dwta.getHashEasy (Dwta.new numHashes dim r).1 ((List.range dim).map val) with
  | .ok codes => codes[b]?
  | .error _ => none

/-- The feature in place `x` of permutation `q`. -/
def place (perms : List (List Nat)) (q x : Nat) : Nat := (perms.getD q []).getD x 0

theorem place_swap {dim p : Nat} {perms : List (List Nat)} (hl : perms.length = p) (hp : ∀ τ ∈ perms, τ.Perm (List.range dim)) {q x y : Nat} (hq : q < p)
    (hx : x < dim) (hy : y < dim) (z : Nat) : place (perms.modify q (swapAt · x y)) q z = place perms q (sw x y z) := by
  have hg : perms[q]? = some perms[q] := List.getElem?_eq_getElem (by omega)
  have hlen : perms[q].length = dim := by simpa using (hp _ (List.getElem_mem _)).length_eq
  unfold place
  simp only [List.getD_eq_getElem?_getD]
  rw [List.getElem?_modify, hg]
  simp only [Option.map_eq_map, Option.map_some, if_pos, Option.getD_some]
  rw [getElem?_swapAt _ _ _ _ (by omega) (by omega)]

theorem place_get {dim p : Nat} {perms : List (List Nat)} (hl : perms.length = p) (hp : ∀ τ ∈ perms, τ.Perm (List.range dim)) {q x : Nat} (hq : q < p)
    (hx : x < dim) : ∃ π, perms[q]? = some π ∧ π.Perm (List.range dim) ∧ π[x]? = some (place perms q x) := by
  have hg : perms[q]? = some perms[q] := List.getElem?_eq_getElem (by omega)
  have h := hp perms[q] (List.getElem_mem _)
  have hlen : perms[q].length = dim := by simpa using h.length_eq
  refine ⟨perms[q], hg, h, ?_⟩
  unfold place
  simp only [List.getD_eq_getElem?_getD]
  rw [hg, Option.getD_some, List.getElem?_eq_getElem (by omega), Option.getD_some]

theorem place_inj {dim p : Nat} {perms : List (List Nat)} (hl : perms.length = p) (hp : ∀ τ ∈ perms, τ.Perm (List.range dim)) {q x y : Nat} (hq : q < p)
    (hx : x < dim) (hy : y < dim) (h : place perms q x = place perms q y) : x = y := by
  obtain ⟨π, h1, h2, h3⟩ := place_get hl hp hq hx
  obtain ⟨π', h1', h2', h3'⟩ := place_get hl hp hq hy
  obtain rfl : π = π' := by rw [h1] at h1'; exact Option.some.inj h1'
  rw [← h, ← h3] at h3'
  have hn : π.Nodup := h2.nodup_iff.mpr List.nodup_range
  have hlen : π.length = dim := by simpa using h2.length_eq
  rw [List.getElem?_eq_getElem (by omega), List.getElem?_eq_getElem (by omega), Option.some.injEq] at h3'
  exact (nodup_inj hn h3').symm

/-- Every feature is in every place of every permutation equally often: in `1 / dim` of the outcomes. -/
theorem count_place (dim p : Nat) (r : Rng) (q : Nat) (hq : q < p) (x : Nat) (hx : x < dim) (f : Nat) (hf : f < dim) :
    dim * countOutcomes (wtaBounds dim p) (fun ds => place (permsList p (List.range dim) (fed ds r)) q x = f) = (outcomes (wtaBounds dim p)).length := by
  have hl : ∀ ds, (permsList p (List.range dim) (fed ds r)).length = p := fun ds => permsList_length _ _ _
  have hp : ∀ ds, ∀ τ ∈ permsList p (List.range dim) (fed ds r), τ.Perm (List.range dim) := fun ds => permsList_perm _ _ _ (List.Perm.refl _)
  rw [← countOutcomes_exists _ (fun y ds => place (permsList p (List.range dim) (fed ds r)) q y = f) _ dim]
  · rw [outcomes_length]
    refine countOutcomes_true _ _ (fun ds => ?_)
    obtain ⟨π, h1, h2, -⟩ := place_get (hl ds) (hp ds) hq hx
    have hm : f ∈ π := h2.mem_iff.mpr (List.mem_range.mpr hf)
    obtain ⟨y, hy, hyf⟩ := List.getElem_of_mem hm
    have hlen : π.length = dim := by simpa using h2.length_eq
    refine ⟨y, by omega, ?_⟩
    obtain ⟨π', h1', h2', h3'⟩ := place_get (hl ds) (hp ds) hq (x := y) (by omega)
    obtain rfl : π = π' := by rw [h1] at h1'; exact Option.some.inj h1'
    rw [List.getElem?_eq_getElem hy, hyf] at h3'
    exact (Option.some.inj h3').symm
  · intro y hy
    rw [← count_swap dim p r q x y hx hy (fun perms => place perms q y = f)]
    refine countOutcomes_congr (fun ds => ?_)
    rw [place_swap (hl ds) (hp ds) hq hx hy]
    unfold sw
    by_cases h : y = x
    · rw [if_pos h, h]
    · rw [if_neg h, if_pos rfl]
  · intro y z ds hy hz h1 h2
    exact place_inj (hl ds) (hp ds) hq hy hz (h1.trans h2.symm)

theorem block_lt {numHashes dim b q : Nat} (hd : 0 < dim) (hb : b < numHashes) (h1 : q * dim ≤ 8 * b) : q < Wta.permuteCount numHashes dim := by
  have := Wta.permuteCount_mul numHashes dim hd
  refine Nat.lt_of_mul_lt_mul_right (a := dim) ?_
  omega

theorem float_asymm [FloatOrder F] (a b : F) (h : GoFloat.lt a b = true) : GoFloat.lt b a = false := by
  cases h' : GoFloat.lt b a with
  | false => rfl
  | true =>
    have := FloatOrder.lt_trans a b a h h'
    rw [FloatOrder.lt_irrefl] at this
    exact this.symm

/-- C84 (WTA). Bin `b` lying inside permutation `q`: if `f` has the strictly largest value, above -2^63, it is the code of the bin
in `8 / dim` of the outcomes. -/
theorem C84_wta_top [FloatOrder F] (numHashes dim : Nat) (hd : 0 < dim) (r : Rng) (val : Nat → F) (f : Nat) (hf : f < dim)
    (hfloor : GoFloat.lt (GoFloat.const (-9223372036854775808)) (val f) = true) (htop : ∀ g, g < dim → g ≠ f → GoFloat.lt (val g) (val f) = true)
    (b : Nat) (hb : b < numHashes) (q : Nat) (h1 : q * dim ≤ 8 * b) (h2 : 8 * b + 8 ≤ (q + 1) * dim) :
    let bounds := wtaBounds dim (Wta.permuteCount numHashes dim)
    dim * countOutcomes bounds (fun ds => wtaCode numHashes dim val b (fed ds r) = some (f : Int)) = 8 * (outcomes bounds).length := by
  intro bounds
  have hq := block_lt hd hb h1
  rw [Nat.succ_mul q dim] at h2
  have hl : ∀ ds, (permsList (Wta.permuteCount numHashes dim) (List.range dim) (fed ds r)).length = Wta.permuteCount numHashes dim :=
    fun ds => permsList_length _ _ _
  have hp : ∀ ds, ∀ τ ∈ permsList (Wta.permuteCount numHashes dim) (List.range dim) (fed ds r), τ.Perm (List.range dim) :=
    fun ds => permsList_perm _ _ _ (List.Perm.refl _)
  have key : ∀ ds, wtaCode numHashes dim val b (fed ds r) = some (f : Int) ↔
      ∃ j, j < 8 ∧ place (permsList (Wta.permuteCount numHashes dim) (List.range dim) (fed ds r)) q (8 * b - q * dim + j) = f := by
    intro ds
    obtain ⟨codes, e1, e2, e3⟩ := C14_dense_argmax numHashes dim hd (fed ds r) val
    obtain ⟨feats, k1, k2, k3, k4⟩ := e3 b hb
    have hfeats : ∀ j, j < 8 → feats[j]? = some (place (permsList (Wta.permuteCount numHashes dim) (List.range dim) (fed ds r)) q (8 * b - q * dim + j)) := by
      intro j hj
      obtain ⟨π, g1, g2, g3⟩ := place_get (hl ds) (hp ds) hq (x := 8 * b - q * dim + j) (by omega)
      rw [k1, List.getElem?_take_of_lt hj, List.getElem?_drop, ← g3]
      show (Wta.permLoop _ _ _).1[_]? = _
      rw [permLoop_flatten, show 8 * b + j = q * dim + (8 * b - q * dim + j) from by omega]
      refine flatten_get dim _ q _ π (fun a ha => by simpa using (hp ds a ha).length_eq) g1 (by omega)
    have hmem : (∃ j, j < 8 ∧ place (permsList (Wta.permuteCount numHashes dim) (List.range dim) (fed ds r)) q (8 * b - q * dim + j) = f) ↔ f ∈ feats := by
      rw [List.mem_iff_getElem?]
      constructor
      · rintro ⟨j, hj, h⟩; exact ⟨j, by rw [hfeats j hj, h]⟩
      · rintro ⟨j, h⟩
        have hj : j < 8 := by rw [← k2]; exact (List.getElem?_eq_some_iff.mp h).1
        refine ⟨j, hj, ?_⟩
        rw [hfeats j hj] at h
        exact Option.some.inj h
    rw [hmem]
    unfold wtaCode
    rw [e1]
    dsimp only
    rcases k4 with ⟨c, c1, c2, pre, post, c3, c4, c5⟩ | ⟨c1, c2⟩
    · rw [c1, Option.some.injEq]
      constructor
      · intro h
        have : c = f := by omega
        rw [c3, this]; simp
      · intro h
        have hc : c ∈ feats := by rw [c3]; simp
        refine Decidable.byContradiction (fun hne => ?_)
        have hne' : c ≠ f := fun h => hne (by rw [h])
        have hlt := htop c (k3 c hc) hne'
        rw [c3, List.mem_append, List.mem_cons] at h
        rcases h with h | h | h
        · rcases c4 f h with h' | h'
          · rw [FloatOrder.lt_nan_right _ _ h'] at hlt; simp at hlt
          · rw [float_asymm _ _ hlt] at h'; simp at h'
        · exact hne' h.symm
        · rw [c5 f h] at hlt; simp at hlt
    · rw [c1, Option.some.injEq]
      constructor
      · intro h; omega
      · intro h; rw [c2 f h] at hfloor; simp at hfloor
  rw [countOutcomes_congr key, ← count_place dim (Wta.permuteCount numHashes dim) r q hq (8 * b - q * dim) (by omega) f hf,
    countOutcomes_exists _ (fun j ds => place (permsList (Wta.permuteCount numHashes dim) (List.range dim) (fed ds r)) q (8 * b - q * dim + j) = f)
      (countOutcomes bounds (fun ds => place (permsList (Wta.permuteCount numHashes dim) (List.range dim) (fed ds r)) q (8 * b - q * dim) = f)) 8]
  · rw [Nat.mul_left_comm]
  · intro j hj
    have a1 := count_place dim (Wta.permuteCount numHashes dim) r q hq (8 * b - q * dim) (by omega) f hf
    have a2 := count_place dim (Wta.permuteCount numHashes dim) r q hq (8 * b - q * dim + j) (by omega) f hf
    exact Nat.eq_of_mul_eq_mul_left hd (a2.trans a1.symm)
  · intro j k ds hj hk e1 e2
    have := place_inj (hl ds) (hp ds) hq (x := 8 * b - q * dim + j) (y := 8 * b - q * dim + k) (by omega) (by omega) (e1.trans e2.symm)
    omega

/-- Place `c` of the bin at `o` of permutation `q` has the largest value of the bin. -/
def Wins (val : Nat → F) (perms : List (List Nat)) (q o c : Nat) : Prop :=
  ∀ j, j < 8 → j ≠ c → GoFloat.lt (val (place perms q (o + j))) (val (place perms q (o + c))) = true

instance (val : Nat → F) (perms : List (List Nat)) (q o c : Nat) : Decidable (Wins val perms q o c) := by unfold Wins; infer_instance

theorem wins_swap {dim p : Nat} (val : Nat → F) {perms : List (List Nat)} (hl : perms.length = p) (hp : ∀ τ ∈ perms, τ.Perm (List.range dim)) {q o c d : Nat}
    (hq : q < p) (ho : o + 8 ≤ dim) (hc : c < 8) (hd : d < 8) : Wins val (perms.modify q (swapAt · (o + c) (o + d))) q o c ↔ Wins val perms q o d := by
  unfold Wins
  simp only [place_swap hl hp hq (show o + c < dim by omega) (show o + d < dim by omega)]
  have e : ∀ j, sw (o + c) (o + d) (o + j) = o + (if j = c then d else if j = d then c else j) := by
    intro j
    unfold sw
    by_cases h1 : j = c
    · rw [if_pos (by omega), if_pos h1]
    · by_cases h2 : j = d
      · rw [if_neg (by omega), if_pos (by omega), if_neg h1, if_pos h2]
      · rw [if_neg (by omega), if_neg (by omega), if_neg h1, if_neg h2]
  simp only [e, if_true]
  constructor
  · intro h j hj hne
    by_cases h1 : j = c
    · have := h d hd (by omega)
      rw [if_neg (by omega), if_pos rfl] at this
      rw [h1]; exact this
    · have := h j hj h1
      rwa [if_neg h1, if_neg hne] at this
  · intro h j hj hne
    rw [if_neg hne]
    by_cases h2 : j = d
    · rw [if_pos h2]; exact h c hc (by omega)
    · rw [if_neg h2]; exact h j hj h2

/-- The code of a bin inside one permutation is the place of the largest value. -/
theorem dwta_wins [FloatOrder F] (numHashes dim : Nat) (hd : 0 < dim) (r : Rng) (val : Nat → F)
    (hval : ∀ f, f < dim → GoFloat.lt (GoFloat.const (-9223372036854775808)) (val f) = true)
    (hne : ∀ f g, f < dim → g < dim → f ≠ g → GoFloat.lt (val f) (val g) = true ∨ GoFloat.lt (val g) (val f) = true)
    (b : Nat) (hb : b < numHashes) (q : Nat) (h1 : q * dim ≤ 8 * b) (h2 : 8 * b + 8 ≤ (q + 1) * dim) :
    ∃ w : Nat, w < 8 ∧ ∀ c : Nat, c < 8 → (dwtaCode numHashes dim val b r = some (c : Int) ↔ c = w) ∧
      (Wins val (permsList (Wta.permuteCount numHashes dim) (List.range dim) r) q (8 * b - q * dim) c ↔ c = w) := by
  have hq := block_lt hd hb h1
  rw [Nat.succ_mul q dim] at h2
  have hl : (permsList (Wta.permuteCount numHashes dim) (List.range dim) r).length = Wta.permuteCount numHashes dim := permsList_length _ _ _
  have hp : ∀ τ ∈ permsList (Wta.permuteCount numHashes dim) (List.range dim) r, τ.Perm (List.range dim) := permsList_perm _ _ _ (List.Perm.refl _)
  obtain ⟨codes, e1, e2, e3⟩ := C19_dense_argmax numHashes dim hd r val hval
  obtain ⟨s, w, k1, k2, k3, k4, -⟩ := e3 b hb
  obtain ⟨l1, l2, l3, l4, -⟩ := C18_slots_partition numHashes dim hd r
  have hs : s < (Dwta.new numHashes dim r).1.permute * dim := by rw [← l1]; exact (List.getElem?_eq_some_iff.mp k2).1
  obtain ⟨b', w', m1, m2, m3, -⟩ := l3 s hs
  have hw : w < 8 := by
    rw [k3] at m2
    have := Option.some.inj m2
    omega
  have slot : ∀ j, j < 8 → ∃ v, v < dim ∧ place (permsList (Wta.permuteCount numHashes dim) (List.range dim) r) q (8 * b - q * dim + j) = v ∧
      (Dwta.new numHashes dim r).1.indices[q * dim + v]? = some b ∧ (Dwta.new numHashes dim r).1.pos[q * dim + v]? = some j := by
    intro j hj
    obtain ⟨π, g1, g2, g3⟩ := place_get hl hp hq (x := 8 * b - q * dim + j) (by omega)
    obtain ⟨n1, n2⟩ := new_perms numHashes dim r q π g1 _ _ g3
    refine ⟨_, List.mem_range.mp (g2.mem_iff.mp (List.mem_of_getElem? g3)), rfl, ?_, ?_⟩
    · rw [n1]; congr 1; omega
    · rw [n2]; congr 1; omega
  have hmod : ∀ v, v < dim → (q * dim + v) % dim = v := by
    intro v hv
    rw [Nat.add_comm, Nat.add_mul_mod_self_right, Nat.mod_eq_of_lt hv]
  obtain ⟨vw, vw1, vw2, vw3, vw4⟩ := slot w hw
  obtain rfl : s = q * dim + vw := l4 s _ b w k2 k3 vw3 vw4
  rw [hmod vw vw1] at k4
  have hwin : ∀ j, j < 8 → j ≠ w → GoFloat.lt (val (place (permsList (Wta.permuteCount numHashes dim) (List.range dim) r) q (8 * b - q * dim + j)))
      (val vw) = true := by
    intro j hj hjw
    obtain ⟨v, v1, v2, v3, v4⟩ := slot j hj
    rw [v2]
    have hn := k4 _ v3
    rw [hmod v v1] at hn
    have hvne : v ≠ vw := by
      intro h
      subst h
      rw [v4] at vw4
      exact hjw (Option.some.inj vw4)
    rcases hne v vw v1 vw1 hvne with h | h
    · exact h
    · rw [hn] at h; simp at h
  refine ⟨w, hw, fun c hc => ⟨?_, ?_, ?_⟩⟩
  · unfold dwtaCode
    rw [e1]
    dsimp only
    rw [k1, Option.some.injEq]
    omega
  · intro h
    refine Decidable.byContradiction (fun hcw => ?_)
    have a1 := h w hw (fun h => hcw h.symm)
    rw [vw2] at a1
    have a2 := hwin c hc hcw
    rw [float_asymm _ _ a1] at a2
    simp at a2
  · rintro rfl j hj hjc
    rw [vw2]
    exact hwin j hj hjc

/-- C84 (DWTA). For a vector of different values above -2^63, every code of a bin inside one permutation is equally likely: each of the 8 codes
in one eighth of the outcomes. -/
theorem C84_dwta_uniform [FloatOrder F] (numHashes dim : Nat) (hd : 0 < dim) (r : Rng) (val : Nat → F)
    (hval : ∀ f, f < dim → GoFloat.lt (GoFloat.const (-9223372036854775808)) (val f) = true)
    (hne : ∀ f g, f < dim → g < dim → f ≠ g → GoFloat.lt (val f) (val g) = true ∨ GoFloat.lt (val g) (val f) = true)
    (b : Nat) (hb : b < numHashes) (q : Nat) (h1 : q * dim ≤ 8 * b) (h2 : 8 * b + 8 ≤ (q + 1) * dim) (c : Nat) (hc : c < 8) :
    let bounds := wtaBounds dim (Wta.permuteCount numHashes dim)
    8 * countOutcomes bounds (fun ds => dwtaCode numHashes dim val b (fed ds r) = some (c : Int)) = (outcomes bounds).length := by
  intro bounds
  have hq := block_lt hd hb h1
  have hl : ∀ ds, (permsList (Wta.permuteCount numHashes dim) (List.range dim) (fed ds r)).length = Wta.permuteCount numHashes dim :=
    fun ds => permsList_length _ _ _
  have hp : ∀ ds, ∀ τ ∈ permsList (Wta.permuteCount numHashes dim) (List.range dim) (fed ds r), τ.Perm (List.range dim) :=
    fun ds => permsList_perm _ _ _ (List.Perm.refl _)
  have key : ∀ ds, ∃ w : Nat, w < 8 ∧ ∀ c : Nat, c < 8 → (dwtaCode numHashes dim val b (fed ds r) = some (c : Int) ↔ c = w) ∧
      (Wins val (permsList (Wta.permuteCount numHashes dim) (List.range dim) (fed ds r)) q (8 * b - q * dim) c ↔ c = w) :=
    fun ds => dwta_wins numHashes dim hd (fed ds r) val hval hne b hb q h1 h2
  rw [Nat.succ_mul q dim] at h2
  have hsame : ∀ d : Nat, d < 8 → countOutcomes bounds (fun ds => dwtaCode numHashes dim val b (fed ds r) = some (d : Int)) =
      countOutcomes bounds (fun ds => dwtaCode numHashes dim val b (fed ds r) = some (c : Int)) := by
    intro d hd8
    have tr : ∀ e : Nat, e < 8 → countOutcomes bounds (fun ds => dwtaCode numHashes dim val b (fed ds r) = some (e : Int)) =
        countOutcomes bounds (fun ds => Wins val (permsList (Wta.permuteCount numHashes dim) (List.range dim) (fed ds r)) q (8 * b - q * dim) e) := by
      intro e he
      refine countOutcomes_congr (fun ds => ?_)
      obtain ⟨w, -, hw⟩ := key ds
      rw [(hw e he).1, (hw e he).2]
    rw [tr d hd8, tr c hc, ← count_swap dim (Wta.permuteCount numHashes dim) r q (8 * b - q * dim + c) (8 * b - q * dim + d) (by omega) (by omega)
      (fun perms => Wins val perms q (8 * b - q * dim) c)]
    refine countOutcomes_congr (fun ds => ?_)
    rw [wins_swap val (hl ds) (hp ds) hq (by omega) hc hd8]
  rw [← countOutcomes_exists bounds (fun (d : Nat) ds => dwtaCode numHashes dim val b (fed ds r) = some (d : Int)) _ 8 hsame]
  · rw [outcomes_length]
    refine countOutcomes_true _ _ (fun ds => ?_)
    obtain ⟨w, hw, hw'⟩ := key ds
    exact ⟨w, hw, ((hw' w hw).1).mpr rfl⟩
  · intro d e ds _ _ h1 h2
    rw [h1, Option.some.injEq] at h2
    omega

-- one bin over the 8 different values 0, 1, .., 7: code 3 in 5040 of the 40320 outcomes
example (r : Rng) : countOutcomes (wtaBounds 8 1) (fun ds => dwtaCode 1 8 (fun f => (f : Rat)) 0 (fed ds r) = some 3) = 5040 ∧
    (outcomes (wtaBounds 8 1)).length = 40320 := by
  have h := C84_dwta_uniform 1 8 (by decide) r (fun f => (f : Rat)) (by decide +kernel) (by
    intro f g _ _ hne
    rcases Nat.lt_or_gt_of_ne hne with h | h
    · exact .inl (decide_eq_true (Rat.natCast_lt_natCast.mpr h))
    · exact .inr (decide_eq_true (Rat.natCast_lt_natCast.mpr h))) 0 (by decide) 0 (by decide) (by decide) 3 (by decide)
  have e : (outcomes (wtaBounds 8 1)).length = 40320 := by rw [outcomes_length]; decide
  have hp : Wta.permuteCount 1 8 = 1 := by decide
  simp only [hp, e] at h
  have h : 8 * countOutcomes (wtaBounds 8 1) (fun ds => dwtaCode 1 8 (fun f => (f : Rat)) 0 (fed ds r) = some 3) = 40320 := h
  exact ⟨by omega, e⟩

-- 16 features: the largest of them is in the first bin, and its code, in half of the outcomes; the concrete draws 0, 0, .. put feature 15 elsewhere
example : wtaCode 1 16 (fun f => (f : Rat)) 0 (fed (List.replicate 15 0) (fun _ => 0)) = some 8 ∧
    wtaCode 1 16 (fun f => (f : Rat)) 0 (fed ((List.range 15).reverse.map (· + 1)) (fun _ => 0)) = some 7 ∧
    wtaCode 1 16 (fun f => (f : Rat)) 0 (fed (3 :: List.replicate 14 9) (fun _ => 0)) = some 15 := by decide +kernel

end Goslide.Props
