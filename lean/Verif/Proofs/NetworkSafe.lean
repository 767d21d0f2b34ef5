import Verif.Proofs.NetworkProgress
import Verif.Props.Dwta
import Verif.Props.Srp
import Verif.Props.Minhash
import Verif.Props.Lsh
import Verif.Props.Layer
/-
Hash functions and parameters for which the index computations stay inside the tables; layers for which the selection of
nodes and the update cannot panic.
-/
set_option linter.unusedSectionVars false
namespace Goslide.Network
open Goslide Node Lsh Configuration Spec Spec.Node Spec.Network Layer Xcrepo
variable {F : Type} [GoFloat F]

theorem family_iff (f : Int) : (hashFunctionOf f = .wta ↔ f = 1) ∧ (hashFunctionOf f = .densifiedWta ↔ f = 2) ∧ (hashFunctionOf f = .densifiedMinhash ↔ f = 3) ∧
    (hashFunctionOf f = .sparseRandomProjection ↔ f = 4) := by
  unfold hashFunctionOf
  by_cases h1 : f = 1
  · subst h1; decide
  by_cases h2 : f = 2
  · subst h2; decide
  by_cases h3 : f = 3
  · subst h3; decide
  by_cases h4 : f = 4
  · subst h4; decide
  rw [if_neg h1, if_neg h2, if_neg h3, if_neg h4]
  simp [h1, h2, h3, h4]

/-- The conditions by the name of the hash function. -/
theorem hashParams_named {cfg : Config F} {n k l rangePow : Int} (h : HashParams cfg n k l rangePow) :
    rangePow < 63 ∧ match hashFunctionOf cfg.HashFunction with
      | .densifiedWta => 0 < n ∧ k ≤ 30 ∧ k * l < 2 ^ 32 ∧ (2 * k + 2 ≤ rangePow ∨ 3 * k ≤ rangePow)
      | .sparseRandomProjection => n ≤ 2 ^ 53 ∧ k ≤ 62 ∧ k ≤ rangePow
      | .densifiedMinhash => 30 ≤ n ∧ n ≤ 53 ∧ 0 < k * l ∧ k * l < 2 ^ 32
      | _ => False := by
  obtain ⟨h1, h2⟩ := h
  refine ⟨h1, ?_⟩
  split at h2
  · rename_i e; rw [(family_iff _).2.1.mpr e]; exact h2
  · rename_i e; rw [(family_iff _).2.2.2.mpr e]; exact h2
  · rename_i e; rw [(family_iff _).2.2.1.mpr e]; exact h2
  · exact h2.elim

theorem fewest_named (cfg : Config F) : fewest cfg = if hashFunctionOf cfg.HashFunction = .densifiedMinhash then 30 else 0 := by
  unfold fewest
  simp only [(family_iff cfg.HashFunction).2.2.1]

/-- One cell for each of the `l` tables. -/
def CellsOk (l rp : Nat) (I : List Int) : Prop := ∀ t, t < l → ∃ v : Int, I[t]? = some v ∧ 0 ≤ v ∧ v < ((2 ^ rp : Nat) : Int)

theorem cellsOk_of {l rp : Nat} {I : List Int} (hl : I.length = l) (h : ∀ v ∈ I, 0 ≤ v ∧ v < (2 : Int) ^ rp) : CellsOk l rp I := by
  intro t ht
  have := List.getElem?_eq_getElem (l := I) (i := t) (by omega)
  have hm := h _ (List.getElem_mem (l := I) (n := t) (by omega))
  refine ⟨_, this, hm.1, ?_⟩
  have e : ((2 ^ rp : Nat) : Int) = 2 ^ rp := by simp
  rw [e]; exact hm.2

/-- The hasher works for tables with these parameters and `n` inputs. -/
structure HashFits (cfg : Config F) (hs : Hasher) (k l rp n : Nat) : Prop where
  dense : ∀ (s : LSH) (ws spare : List F), s.k = k → s.l = l → s.rangePow = rp → s.rand1.length = k * l → ws.length = n →
    ∃ I, indexOf cfg hs s ws spare = .ok I ∧ CellsOk l rp I
  sparse : ∀ (s : LSH) (data : List (Pair F)), s.k = k → s.l = l → s.rangePow = rp → s.rand1.length = k * l → fewest cfg ≤ data.length →
    data.length ≤ n →
    ∃ codes I, hashSparse cfg hs data = .ok codes ∧ hashesToIndex (hashFunctionOf cfg.HashFunction) s codes = .ok I ∧ CellsOk l rp I

theorem dwta_index {s : LSH} {k l rp : Nat} (hk : s.k = k) (hl : s.l = l) (hrp : s.rangePow = rp) (h30 : k ≤ 30)
    (hp : 2 * k + 2 ≤ rp ∨ 3 * k ≤ rp) {codes : List Int} (hlen : codes.length = k * l) (hc : ∀ c ∈ codes, 0 ≤ c ∧ c < 8) :
    ∃ I, hashesToIndex .densifiedWta s codes = .ok I ∧ CellsOk l rp I := by
  subst hk hl hrp
  obtain ⟨xs, h1, h2, h3⟩ := Props.C11_dwta_index_in_range s codes h30 (by omega) hc hp
  exact ⟨xs, h1, cellsOk_of h2 h3⟩

theorem srp_index {s : LSH} {k l rp : Nat} (hk : s.k = k) (hl : s.l = l) (h62 : k ≤ 62) (hp : k ≤ rp) {codes : List Int}
    (hlen : codes.length = k * l) (hc : ∀ c ∈ codes, c = 0 ∨ c = 1) :
    ∃ I, hashesToIndex .sparseRandomProjection s codes = .ok I ∧ CellsOk l rp I := by
  subst hk hl
  obtain ⟨h1, h2⟩ := Props.C09_srp_index s codes h62 (by omega) hc
  refine ⟨_, h1, cellsOk_of (by simp) ?_⟩
  intro v hv
  obtain ⟨i, hi, rfl⟩ := List.mem_map.mp hv
  obtain ⟨a, b⟩ := h2 i (List.mem_range.mp hi)
  refine ⟨a, Int.lt_of_lt_of_le b ?_⟩
  have : (2 : Nat) ^ s.k ≤ 2 ^ rp := Nat.pow_le_pow_right (by decide) hp
  exact_mod_cast this

theorem dwta_fits {cfg : Config F} (hf : hashFunctionOf cfg.HashFunction = .densifiedWta) {k l rp n : Nat} (hn : 0 < n) (h30 : k ≤ 30)
    (hkl : k * l < 2 ^ 32) (hp : 2 * k + 2 ≤ rp ∨ 3 * k ≤ rp) (r : Rng) : HashFits cfg (.dwta (Dwta.new (k * l) n r).1) k l rp n := by
  constructor
  · intro s ws spare hk hl hrp _ hlen
    obtain ⟨codes, h1, h2, h3⟩ := Props.C17_getHashEasy_codes (k * l) n hn hkl r ws (by omega)
    obtain ⟨I, h4, h5⟩ := dwta_index hk hl hrp h30 hp h2 h3
    refine ⟨I, ?_, h5⟩
    unfold indexOf hashDense
    rw [hf]
    dsimp only
    rw [h1]
    exact h4
  · intro s data hk hl hrp _ _ hlen
    obtain ⟨codes, h1, h2, h3⟩ := Props.C17_getHash_codes (k * l) n hn hkl r data hlen
    obtain ⟨I, h4, h5⟩ := dwta_index hk hl hrp h30 hp h2 h3
    refine ⟨codes, I, ?_, by rw [hf]; exact h4, h5⟩
    unfold hashSparse
    rw [hf]
    exact h1

theorem srp_fits {cfg : Config F} (hf : hashFunctionOf cfg.HashFunction = .sparseRandomProjection) {k l rp n : Nat} (h62 : k ≤ 62)
    (hp : k ≤ rp) {srp : Srp.SparseRandomProjection} (h1 : srp.rows.length = k * l) (h2 : ∀ row ∈ srp.rows, ∀ x ∈ row, x.1 < n) :
    HashFits cfg (.srp srp) k l rp n := by
  have bit : ∀ s : F, Srp.signBit s = 0 ∨ Srp.signBit s = 1 := by
    intro s; unfold Srp.signBit; split
    · exact .inl rfl
    · exact .inr rfl
  constructor
  · intro s ws spare hk hl hrp _ hlen
    have hcodes : ∃ codes, Srp.getHash srp ws = .ok codes ∧ codes.length = k * l ∧ ∀ c ∈ codes, c = 0 ∨ c = 1 := by
      refine ⟨srp.rows.map (fun row => Srp.signBit (row.foldl (fun s x => Srp.signed s (ws.getD x.1 GoFloat.zero) x.2) GoFloat.zero)), ?_, by simp [h1], ?_⟩
      · unfold Srp.getHash
        apply mapM_ok_of_forall
        intro row hrow
        rw [Srp.denseSum_ok row ws (by rw [hlen]; exact h2 row hrow), ok_bind]
        rfl
      · intro c hc
        obtain ⟨row, -, rfl⟩ := List.mem_map.mp hc
        exact bit _
    obtain ⟨codes, q1, q2, q3⟩ := hcodes
    obtain ⟨I, h4, h5⟩ := srp_index (rp := rp) hk hl h62 hp q2 q3
    refine ⟨I, ?_, h5⟩
    unfold indexOf hashDense
    rw [hf]
    dsimp only
    rw [q1]
    exact h4
  · intro s data hk hl hrp _ _ hlen
    obtain ⟨I, h4, h5⟩ := srp_index (rp := rp) (codes := Srp.getHashSparse srp data) hk hl h62 hp (by unfold Srp.getHashSparse; simp [h1]) (by
      intro c hc
      unfold Srp.getHashSparse at hc
      obtain ⟨row, -, rfl⟩ := List.mem_map.mp hc
      exact bit _)
    refine ⟨_, I, ?_, by rw [hf]; exact h4, h5⟩
    unfold hashSparse
    rw [hf]

theorem minhash_fits [FloatIntDiv F] {cfg : Config F} (hf : hashFunctionOf cfg.HashFunction = .densifiedMinhash) {k l rp n : Nat} (hrp : rp < 63)
    (h30 : 30 ≤ n) (h53 : n ≤ 53) (h0 : 0 < k * l) (hkl : k * l < 2 ^ 32) (f : Nat → BitVec 64) (r : Rng) :
    HashFits cfg (.minhash (Minhash.new (k * l) n f r).1 (Minhash.getMap F (Minhash.new (k * l) n f r).1 n)) k l rp n := by
  have e1 : (Minhash.new (k * l) n f r).1.rangePow = n := rfl
  have e2 : (Minhash.new (k * l) n f r).1.numHashes = k * l := rfl
  have e3 : (Minhash.new (k * l) n f r).1.logNumHash = Nat.log2 (k * l) := rfl
  generalize (Minhash.new (k * l) n f r).1 = dm at e1 e2 e3
  have hlog : dm.logNumHash ≤ 31 := by
    rw [e3]
    have := (Nat.log2_lt (by omega)).mpr hkl
    omega
  obtain ⟨hlen, hbin⟩ := Props.C23_map_range_partial (F := F) dm n (by omega) (by omega) (by rw [e2]; exact Nat.le_of_lt (Nat.lt_of_lt_of_le hkl (by decide)))
  have hv : ∀ i : Nat, i < n → ValidIndex dm.numHashes (Minhash.getMap F dm n) (i : Int) := by
    intro i hi
    have := List.getElem?_eq_getElem (l := Minhash.getMap F dm n) (i := i) (by omega)
    have hm := hbin _ (List.getElem_mem (l := Minhash.getMap F dm n) (n := i) (by omega))
    refine ⟨((Minhash.getMap F dm n)[i]).toNat, by omega, by omega, ?_⟩
    rw [Int.toNat_natCast, Int.toNat_of_nonneg hm.1]
    exact this
  have key : ∀ (s : LSH) (codes : List Int), s.k = k → s.l = l → s.rangePow = rp → s.rand1.length = k * l → codes.length = k * l →
      ∃ I, hashesToIndex .densifiedMinhash s codes = .ok I ∧ CellsOk l rp I := by
    intro s codes hk hl hr hrand hc
    obtain ⟨I, i1, i2, i3⟩ := hashesToIndex_minhash s codes (by rw [hk, hl]; omega) (by rw [hk, hl]; omega) (by omega)
    refine ⟨I, i1, cellsOk_of (by omega) ?_⟩
    intro v hv
    have := i3 v hv
    rw [hr] at this
    exact ⟨this.1, by have := this.2; simpa using this⟩
  constructor
  · intro s ws spare hk hl hr hrand hlen'
    obtain ⟨codes, c1, c2⟩ := Props.C25_succeeds dm hlog (Minhash.getMap F dm n) ws spare topK (by unfold topK; omega) (by rw [hlen']; exact hv)
    obtain ⟨I, h4, h5⟩ := key s codes hk hl hr hrand (by rw [c2, e2])
    refine ⟨I, ?_, h5⟩
    unfold indexOf hashDense
    rw [hf]
    dsimp only
    rw [c1]
    exact h4
  · intro s data hk hl hr hrand hmany hlen'
    have hmany : 30 ≤ data.length := by rw [fewest_named, if_pos hf] at hmany; exact hmany
    obtain ⟨codes, c1, c2⟩ := Props.C25_succeeds dm hlog (Minhash.getMap F dm n) (data.map (·.Value)) [] topK (by rw [List.length_map]; exact hmany)
      (by rw [List.length_map]; exact fun i hi => hv i (by omega))
    obtain ⟨I, h4, h5⟩ := key s codes hk hl hr hrand (by rw [c2, e2])
    refine ⟨codes, I, ?_, by rw [hf]; exact h4, h5⟩
    unfold hashSparse
    rw [hf]
    exact c1

theorem hashParams_fits [FloatIntDiv F] {cfg : Config F} {n k l rp : Int} (hp : HashParams cfg n k l rp) (h0 : 0 ≤ k ∧ 0 ≤ l ∧ 0 ≤ rp) :
    (∀ w : World F, ∃ hs w', newHasher cfg (k * l).toNat n.toNat w = .ok (hs, w')) ∧
    ∀ (hs : Hasher) (v v' : World F), newHasher cfg (k * l).toNat n.toNat v = .ok (hs, v') →
      HashFits cfg hs k.toNat l.toNat rp.toNat n.toNat := by
  obtain ⟨k0, l0, r0⟩ := h0
  obtain ⟨k, rfl⟩ := Int.eq_ofNat_of_zero_le k0
  obtain ⟨l, rfl⟩ := Int.eq_ofNat_of_zero_le l0
  obtain ⟨rp, rfl⟩ := Int.eq_ofNat_of_zero_le r0
  have ekl : ((k : Int) * (l : Int)).toNat = k * l := by rw [← Int.natCast_mul, Int.toNat_natCast]
  rw [ekl, Int.toNat_natCast, Int.toNat_natCast, Int.toNat_natCast]
  obtain ⟨hrp, hp⟩ := hashParams_named hp
  cases hf : hashFunctionOf cfg.HashFunction with
  | densifiedWta =>
    rw [hf] at hp
    obtain ⟨q1, q2, q3, q4⟩ := hp
    constructor
    · intro w
      unfold newHasher
      rw [hf]
      exact ⟨_, _, rfl⟩
    · intro hs v v' h
      unfold newHasher at h
      rw [hf] at h
      obtain ⟨r, h, -⟩ := draw_ok h
      simp only [Except.ok.injEq, Prod.mk.injEq] at h
      rw [← h.1]
      refine dwta_fits hf (by omega) (by omega) ?_ (by omega) _
      have : ((k * l : Nat) : Int) < 2 ^ 32 := by rw [Int.natCast_mul]; exact q3
      exact_mod_cast this
  | sparseRandomProjection =>
    rw [hf] at hp
    obtain ⟨q1, q2, q3⟩ := hp
    have key : ∀ r : Rng, ∃ srp r', Srp.new F n.toNat (k * l) srpRatio r = .ok (srp, r') ∧ srp.rows.length = k * l ∧
        ∀ row ∈ srp.rows, ∀ x ∈ row, x.1 < n.toNat := by
      intro r
      obtain ⟨srp, r', h1, -, -, h2, -, h3⟩ := Props.C27_samples F n.toNat (k * l) srpRatio r (by decide) (by
        have : (n.toNat : Int) ≤ 2 ^ 53 := by omega
        exact_mod_cast this) (by decide)
      exact ⟨srp, r', h1, h2, fun row hrow => (h3 row hrow).2.2⟩
    constructor
    · intro w
      obtain ⟨srp, r', h1, -⟩ := key w.rng
      refine ⟨.srp srp, { w with rng := r' }, ?_⟩
      unfold newHasher
      rw [hf]
      exact draw_run (by rw [h1]; rfl)
    · intro hs v v' h
      unfold newHasher at h
      rw [hf] at h
      obtain ⟨r, h, -⟩ := draw_ok h
      obtain ⟨srp, r', h1, h2, h3⟩ := key v.rng
      rw [h1] at h
      simp only [ok_bind, pure, Except.pure, Except.ok.injEq, Prod.mk.injEq] at h
      rw [← h.1]
      exact srp_fits hf (by omega) (by omega) h2 h3
  | wta => rw [hf] at hp; exact hp.elim
  | densifiedMinhash =>
    rw [hf] at hp
    obtain ⟨q1, q2, q3, q4⟩ := hp
    constructor
    · intro w
      unfold newHasher
      rw [hf]
      exact ⟨_, _, rfl⟩
    · intro hs v v' h
      unfold newHasher at h
      rw [hf] at h
      simp only [Except.ok.injEq, Prod.mk.injEq] at h
      rw [← h.1]
      have e3 : ((k * l : Nat) : Int) = (k : Int) * l := Int.natCast_mul _ _
      exact minhash_fits hf (by omega) (by omega) (by omega) (by omega) (by
        have : ((k * l : Nat) : Int) < 2 ^ 32 := by rw [e3]; exact q4
        exact_mod_cast this) _ _
  | other x => rw [hf] at hp; exact hp.elim

/-! ### Tables of a layer -/

theorem cell_ids {n : Nat} (t i : Nat) : ∀ (ops : List Op) (h : List Int), (∀ op ∈ ops, OpIn n op) → (∀ id ∈ h, 0 ≤ id ∧ id < n) →
    ∀ id ∈ ops.foldl (cellStep t i) h, 0 ≤ id ∧ id < n
  | [], _, _, hh => hh
  | op :: ops, h, ho, hh => by
    rw [List.foldl_cons]
    refine cell_ids t i ops _ (fun o ho' => ho o (List.mem_cons_of_mem _ ho')) ?_
    have hop := ho op (by simp)
    have app : ∀ x : Int, 0 ≤ x ∧ x < n → ∀ id ∈ h ++ [x], 0 ≤ id ∧ id < n := by
      intro x hx id hid
      rcases List.mem_append.mp hid with hid | hid
      · exact hh id hid
      · rw [List.mem_singleton.mp hid]; exact hx
    cases op with
    | add I x =>
      show ∀ id ∈ (if I[t]? = some (i : Int) then h ++ [x] else h), 0 ≤ id ∧ id < n
      split
      · exact app x hop
      · exact hh
    | addSingle a b x =>
      show ∀ id ∈ (if a = (t : Int) ∧ b = (i : Int) then h ++ [x] else h), 0 ≤ id ∧ id < n
      split
      · exact app x hop
      · exact hh
    | clear => intro id hid; simp [cellStep] at hid

theorem kept_shape {cfg : Config F} {size prev ty k l rp : Int} {g : State F} (hk : Kept cfg size prev ty k l rp g) (hrp : rp < 63) :
    g.tables.k = k.toNat ∧ g.tables.l = l.toNat ∧ g.tables.rangePow = rp.toNat ∧ g.tables.rand1.length = k.toNat * l.toNat := by
  obtain ⟨s0, r, r', ops, h1, h2, -⟩ := hk.tables
  obtain ⟨s1, r1, e, q1, q2, q3, q4, hrep⟩ := Lsh.new_ok k.toNat l.toNat rp.toNat r (by have := hk.pos; omega)
  rw [h1] at e
  simp only [Except.ok.injEq, Prod.mk.injEq] at e
  obtain ⟨rfl, rfl⟩ := e
  obtain ⟨-, a, b, c, d⟩ := hrep.run ops _ h2
  exact ⟨by rw [b, q1], by rw [a, q2], by rw [c, q3], by rw [d, q4]; simp [Lsh.drawMultipliers]⟩

theorem kept_addSafe {cfg : Config F} {size prev ty k l rp : Int} {g : State F} (hk : Kept cfg size prev ty k l rp g) (hrp : rp < 63)
    {hs : Hasher} {n : Nat} (hf : HashFits cfg hs k.toNat l.toNat rp.toNat n) : AddSafe cfg hs g.tables n := by
  intro ops' t' ws spare id hrun hlen
  obtain ⟨s0, r, r', ops, h1, h2, -⟩ := hk.tables
  have hall : Lsh.run s0 (ops ++ (Op.clear :: ops')) = .ok t' := by
    rw [run_append, h2, ok_bind, run_cons]
    exact hrun
  have hp : rp.toNat < 63 := by have := hk.pos; omega
  obtain ⟨s1, r1, e, q1, q2, q3, q4, hrep⟩ := Lsh.new_ok k.toNat l.toNat rp.toNat r hp
  rw [h1] at e
  simp only [Except.ok.injEq, Prod.mk.injEq] at e
  obtain ⟨rfl, rfl⟩ := e
  obtain ⟨-, a, b, c, d⟩ := hrep.run _ _ hall
  obtain ⟨I, i1, i2⟩ := hf.dense t' ws spare (by rw [b, q1]) (by rw [a, q2]) (by rw [c, q3]) (by rw [d, q4]; simp [Lsh.drawMultipliers]) hlen
  obtain ⟨⟨slots, t''⟩, ha⟩ := ((Props.C07_add_retrieve_ok_iff _ _ _ hp r r' s0 t' _ h1 hall I id).1 i2).1
  exact ⟨I, slots, t'', i1, ha⟩

theorem kept_candidates {cfg : Config F} {size prev ty k l rp : Int} {g : State F} (hk : Kept cfg size prev ty k l rp g) (hrp : rp < 63)
    {n : Nat} (hf : HashFits cfg g.obj.hasher k.toNat l.toNat rp.toNat n) {data : List (Pair F)} (hd : fewest cfg ≤ data.length ∧ data.length ≤ n) :
    ∃ retrieved, candidates cfg g.obj.hasher g.tables data = .ok retrieved ∧ ∀ id ∈ retrieved.flatten, 0 ≤ id ∧ id < g.nodes.length := by
  obtain ⟨e1, e2, e3, e4⟩ := kept_shape hk hrp
  obtain ⟨s0, r, r', ops, h1, h2, h3⟩ := hk.tables
  have hp : rp.toNat < 63 := by have := hk.pos; omega
  obtain ⟨codes, I, c1, c2, c3⟩ := hf.sparse g.tables data e1 e2 e3 e4 hd.1 hd.2
  obtain ⟨raw, r1, r2, r3⟩ := Props.C06_retrieveRaw_refines _ _ _ hp r r' s0 g.tables ops h1 h2 I c3
  refine ⟨raw, ?_, ?_⟩
  · unfold candidates
    rw [c1, ok_bind, c2, ok_bind, r1]
  · intro id hid
    obtain ⟨xs, hxs, hid⟩ := List.mem_flatten.mp hid
    obtain ⟨t, ht⟩ := List.getElem?_of_mem hxs
    have hlt := (List.getElem?_eq_some_iff.mp ht).1
    obtain ⟨v, hv, v0, -⟩ := c3 t (by omega)
    obtain ⟨j, rfl⟩ := Int.eq_ofNat_of_zero_le v0
    obtain ⟨ys, hys, -, hperm⟩ := r3 t j (by omega) hv
    rw [ht] at hys
    cases hys
    have := hperm.mem_iff.mp hid
    unfold newest128 at this
    exact cell_ids t j ops [] h3 (by simp) id (List.mem_of_mem_drop this)

/-! ### Selection and update -/

theorem idsOk_range (n : Nat) : IdsOk n ((List.range n).map (fun (i : Nat) => (i : Int))) := by
  refine ⟨?_, ?_⟩
  · unfold List.Nodup
    rw [List.pairwise_map]
    exact List.nodup_range.imp (fun h => by omega)
  · intro id hid
    exact mem_ids.mp hid

theorem selectSafe_full (cfg : Config F) (P : Pace) (label : List Int) {sp : F} (hsp : GoFloat.eq sp GoFloat.one = true) (n : Nat)
    (x : Layer) (order : List Int) (t : LSH) : SelectSafe cfg P label sp x.nodes.len n x order t := by
  intro w data _ _ _ _
  exact ⟨0, _, _, _, P.zero, fun _ _ => select_full hsp, idsOk_range _, by simp⟩

/-- In the other modes, and in mode 3 for ReLU layers, no node is active. -/
theorem selectSafe_none {cfg : Config F} (P : Pace) {label : List Int} {sp : F} {n : Nat} {x : Layer} {order : List Int} {t : LSH}
    (hsp : GoFloat.eq sp GoFloat.one = false) (h1 : cfg.LayerMode ≠ 1) (h2 : cfg.LayerMode ≠ 2) (h3 : cfg.LayerMode = 3 → x.nodeType ≠ Softmax)
    (h4 : cfg.LayerMode ≠ 4) : SelectSafe cfg P label sp 0 n x order t := by
  intro w data _ _ _ _
  refine ⟨0, 0, none, w, P.zero, fun fuel _ => ?_, ⟨List.nodup_nil, by simp⟩, Nat.zero_le _⟩
  unfold select
  dsimp only
  rw [if_neg (by rw [hsp]; simp), if_neg h1, if_neg h2]
  by_cases hm : cfg.LayerMode = 3
  · rw [if_pos hm, if_neg (by simpa using h3 hm)]
    rfl
  · rw [if_neg hm, if_neg h4]
    rfl

theorem mode2Loop_mono (n : Nat) : ∀ (fuel fuel' tmp : Nat) (st : List Int × List Bool) (r : Rng) {o : List Int × Rng}, fuel ≤ fuel' →
    mode2Loop n fuel tmp st r = .ok o → mode2Loop n fuel' tmp st r = .ok o := by
  intro fuel
  induction fuel with
  | zero =>
    intro fuel' tmp (act, bs) r o _ h
    rw [mode2Loop.eq_def] at h ⊢
    dsimp only at h ⊢
    by_cases ht : tmp < act.length
    · rw [if_pos ht] at h; cases h
    · rw [if_neg ht] at h ⊢; exact h
  | succ fuel ih =>
    intro fuel' tmp (act, bs) r o hle h
    obtain ⟨f, rfl⟩ : ∃ f, fuel' = f + 1 := ⟨fuel' - 1, by omega⟩
    have ih := fun (tmp : Nat) (st : List Int × List Bool) (r : Rng) => ih f tmp st r (o := o) (by omega)
    rw [mode2Loop] at h ⊢
    by_cases ht : tmp < act.length
    · rw [if_pos ht] at h ⊢
      cases hr : randIntn r n with
      | error e => simp only [hr] at h; cases h
      | ok v =>
        obtain ⟨v, r1⟩ := v
        simp only [hr, ok_bind] at h ⊢
        cases hg : goGet bs (v : Int) with
        | error e => simp only [hg] at h; cases h
        | ok b =>
          simp only [hg, ok_bind] at h ⊢
          cases b with
          | true => exact ih _ _ _ h
          | false =>
            simp only [Bool.false_eq_true, if_false] at h ⊢
            cases h1 : goSet act (tmp : Int) (v : Int) with
            | error e => simp only [h1] at h; cases h
            | ok act' =>
              simp only [h1, ok_bind] at h ⊢
              cases h2 : goSet bs (v : Int) true with
              | error e => simp only [h2] at h; cases h
              | ok bs' =>
                simp only [h2, ok_bind] at h ⊢
                exact ih _ _ _ h
    · rw [if_neg ht] at h ⊢; exact h

/-- In mode 2 a ReLU layer has no active nodes; those of a softmax layer are drawn until there are enough. -/
theorem selectSafe_sampled {cfg : Config F} {P : Pace} {label : List Int} {sp : F} {n : Nat} {x : Layer} {order : List Int} {t : LSH}
    (hsp : GoFloat.eq sp GoFloat.one = false) (hm : cfg.LayerMode = 2) (hn : 0 < x.nodes.len) (hmap : x.nodes.len ≤ mapLen)
    (h0 : 0 ≤ wanted x.nodes.len sp) (hsize : wanted x.nodes.len sp ≤ x.nodes.len)
    (hlab : x.nodeType = Softmax → (∀ y ∈ label, 0 ≤ y ∧ y < x.nodes.len) ∧ label.Nodup ∧ label.length ≤ wanted x.nodes.len sp)
    (hK : ∀ k, P.K k) (hJ : ∀ r, P.J r → Fair x.nodes.len r) : SelectSafe cfg P label sp 0 n x order t := by
  intro w data hr _ _ _
  by_cases hty : x.nodeType = Softmax
  · obtain ⟨q1, q2, q3⟩ := hlab hty
    obtain ⟨act, bs, e1, hs1, -⟩ := Props.mode2_labels_run hmap h0 q1 q2 q3
    have hs : Props.sampleSize x sp = wanted x.nodes.len sp := rfl
    obtain ⟨fuel, h⟩ := Sampled.ends hmap (by omega) _ _ _ _ w.rng hs1 (hJ _ hr) rfl
    rcases Sampled.loop hn hmap fuel _ _ _ w.rng hs1 with hl | ⟨act', bs', r', hl, hd, -⟩
    · exact absurd hl (h _)
    · refine ⟨fuel, 0, some act', { w with rng := r' }, hK _, fun fuel' hf => ?_, ?_⟩
      · rw [select_mode2 hsp hm hty, e1, mode2Loop_mono _ _ _ _ _ _ hf hl]
      · have ht : act'.take (Props.sampleSize x sp).toNat = act' := by rw [← hd.length, List.take_length]
        have h1 := hd.nodup
        have h2 := hd.range
        rw [ht] at h1 h2
        exact ⟨⟨h1, h2⟩, Nat.zero_le _⟩
  · refine ⟨0, 0, none, w, P.zero, fun fuel _ => ?_, ⟨List.nodup_nil, by simp⟩, Nat.zero_le _⟩
    unfold select
    dsimp only
    rw [if_neg (by rw [hsp]; simp), if_neg (by omega), if_pos hm, if_neg (by simpa using hty)]
    rfl

/-- In mode 4 the labels of a softmax layer have to be distinct nodes; in mode 1 they have to be nodes. -/
theorem selectSafe_kept {cfg : Config F} (P : Pace) {label : List Int} {sp : F} {n : Nat} {size prev ty k l rp : Int} {g : State F}
    (hsp : GoFloat.eq sp GoFloat.one = false) (hm : cfg.LayerMode = 1 ∨ cfg.LayerMode = 4)
    (hk : Kept cfg size prev ty k l rp g) (hlen : g.obj.nodes.len = g.nodes.length) (hrp : rp < 63) (hpos : cfg.LayerMode = 4 → 0 < size)
    (hlab : ty = Softmax → (∀ y ∈ label, 0 ≤ y ∧ y < size) ∧ (cfg.LayerMode = 4 → label.Nodup))
    (hf : HashFits cfg g.obj.hasher k.toNat l.toNat rp.toNat n) : SelectSafe cfg P label sp 0 n g.obj g.order g.tables := by
  intro w data _ ho ht hd
  obtain ⟨retrieved, hc, hids⟩ := kept_candidates hk hrp hf (hd.2 (by rw [hsp]; rfl))
  have hsize := hk.nodes
  rcases hm with hm | hm
  · obtain ⟨hnd, hin⟩ := mode1_spec (g.obj.nodeType = Softmax) g.obj.l label retrieved w.mapRng
    refine ⟨0, (mode1 (g.obj.nodeType = Softmax) g.obj.l label retrieved w.mapRng).1.length,
      some (mode1 (g.obj.nodeType = Softmax) g.obj.l label retrieved w.mapRng).1,
      { w with mapRng := (mode1 (g.obj.nodeType = Softmax) g.obj.l label retrieved w.mapRng).2 }, P.zero, fun fuel _ => ?_, ?_, Nat.zero_le _⟩
    · unfold select
      dsimp only
      rw [if_neg (by rw [hsp]; simp), if_pos hm]
      rw [M.bind_ok (tables_run ht), M.bind_ok (lift_run hc)]
      rfl
    · refine ⟨hnd, fun id hid => ?_⟩
      rw [Option.getD_some] at hid
      have h2 := (hin id).mp hid
      by_cases hr : id ∈ retrieved.flatten
      · rw [hlen]; exact hids id hr
      · rw [List.count_eq_zero.mpr hr] at h2
        by_cases hs : g.obj.nodeType = Softmax ∧ id ∈ label
        · have := (hlab (by rw [← hk.oTy]; exact hs.1)).1 id hs.2
          omega
        · rw [if_neg (by simpa using hs)] at h2
          omega
  · have hn : 0 < g.obj.nodes.len := by have := hpos hm; omega
    obtain ⟨W, e, r', h5, -, -, -, he⟩ := mode4_run (softmax := decide (g.obj.nodeType = Softmax)) (l := g.obj.l) (n := g.obj.nodes.len)
      (order := g.order) (label := label) (actives := retrieved) (by rw [hk.oL]; exact hk.pos.2.1) hn (by rw [hlen]; exact hk.order) (by
        intro h y hy
        have := (hlab (by rw [← hk.oTy]; simpa using h)).1 y hy
        omega) (by rw [hlen]; exact hids) w.rng
    refine ⟨0, _, _, _, P.zero, fun _ _ => select_mode4_run hsp hm ht hc ho.read h5, ?_, Nat.zero_le _⟩
    have he0 : e = 0 := by
      rw [he]
      split
      · rename_i h
        have hl := hlab (by rw [← hk.oTy]; simpa using h)
        rw [(count_label (n := g.obj.nodes.len) (fun y hy => by have := hl.1 y hy; omega)).2 (hl.2 hm)]
        omega
      · rfl
    rw [Option.getD_some, he0, List.replicate_zero, List.append_nil]
    refine ⟨?_, ?_⟩
    · unfold List.Nodup
      rw [List.pairwise_map]
      exact (List.nodup_range.filter _).imp (fun h => by omega)
    · intro id hid
      obtain ⟨j, hj, rfl⟩ := List.mem_map.mp hid
      have := List.mem_range.mp (List.mem_filter.mp hj).1
      omega

theorem rehashSafe_kept [FloatIntDiv F] {cfg : Config F} {size prev ty k l rp : Int} {g : State F} (hk : Kept cfg size prev ty k l rp g)
    (hp : HashParams cfg prev k l rp) : RehashSafe cfg g.obj g.tables prev.toNat := by
  obtain ⟨h1, h2⟩ := hashParams_fits hp hk.pos
  refine ⟨?_, ?_, ?_⟩
  · rw [hk.oK, hk.oL, hk.oPrev]; exact h1
  · obtain ⟨v, v', hv⟩ := hk.hasher
    exact kept_addSafe hk hp.1 (h2 _ v v' hv)
  · rw [hk.oK, hk.oL, hk.oPrev]
    intro hs v v' hv
    exact kept_addSafe hk hp.1 (h2 _ v v' hv)

/-! ### From the arguments of `New` -/

theorem kept_inputs {cfg : Config F} {a : NetArgs F} {Q : List (State F)} (hQ : AllKept cfg a Q) {j : Nat} {prev : Int} (hj : j < Q.length)
    (h0 : j = 0 → prev = a.dim) (h1 : ∀ i, j = i + 1 → a.sizes[i]? = some prev) :
    a.inputs j = prev ∧ inputSize a.dim.toNat Q j = prev.toNat := by
  cases j with
  | zero => exact ⟨by rw [h0 rfl]; rfl, by rw [h0 rfl]; rfl⟩
  | succ i =>
    have hi := h1 i rfl
    have hg := List.getElem?_eq_getElem (l := Q) (i := i) (by omega)
    obtain ⟨size, prev', ty, k, l, rp, q1, -, -, -, -, hk, -⟩ := hQ i _ hg
    rw [q1] at hi
    obtain rfl := Option.some.inj hi
    constructor
    · unfold NetArgs.inputs
      rw [if_neg (by omega), Nat.add_sub_cancel, q1]; rfl
    · rw [inputSize_succ hg]
      have := hk.nodes
      omega

theorem forwardSafe_args [FloatIntDiv F] {cfg : Config F} {P : Pace} {a : NetArgs F} {Q : List (State F)} {off : Nat} {features : List (Pair F)}
    {label : List Int} (hQ : AllKept cfg a Q) (hl : (Q.length : Int) = a.layers) (hlen : ∀ g ∈ Q, g.obj.nodes.len = g.nodes.length)
    (hP : P.Enough cfg a.sizes) (hok : LayersOk cfg a off) (hfit : Fits cfg a off features label) : ForwardSafe cfg P label a.sparsity off a.dim.toNat Q := by
  refine ⟨fun j g hg => ?_⟩
  have hj := (List.getElem?_eq_some_iff.mp hg).1
  obtain ⟨size, prev, ty, k, l, rp, q1, q2, q3, q4, q5, hk, q6, q7⟩ := hQ j g hg
  obtain ⟨sp, hsp, hor⟩ := hok j size k l rp (by omega) q1 q3 q4 q5
  have hl' := hlen g (List.mem_of_getElem? hg)
  have hsize := hk.nodes
  have hnext : ∀ sp', j + 1 < Q.length → a.sparsity[off + (j + 1)]? = some sp' → GoFloat.eq sp' (GoFloat.one : F) = false →
      fewest cfg = 0 ∨ GoFloat.eq sp (GoFloat.one : F) = true ∧ fewest cfg ≤ g.obj.nodes.len := by
    intro sp' hj' hsp' he'
    have hg1 := List.getElem?_eq_getElem hj'
    obtain ⟨size1, prev1, ty1, k1, l1, rp1, u1, u2, u3, u4, u5, hk1, u6, u7⟩ := hQ (j + 1) _ hg1
    obtain ⟨sp1, hsp1, hor1⟩ := hok (j + 1) size1 k1 l1 rp1 (by omega) u1 u3 u4 u5
    rw [hsp'] at hsp1
    obtain rfl := Option.some.inj hsp1
    rcases hor1 with ⟨h1, -⟩ | ⟨-, -, hfull, -, hp⟩
    · rw [he'] at h1; cases h1
    · by_cases h0 : fewest cfg = 0
      · exact .inl h0
      · obtain ⟨sp0, hs0, hs1⟩ := hfull h0 (by omega)
        rw [Nat.add_sub_cancel, hsp] at hs0
        obtain rfl := Option.some.inj hs0
        have hh : hashFunctionOf cfg.HashFunction = .densifiedMinhash := by
          rw [fewest_named] at h0
          by_cases h : hashFunctionOf cfg.HashFunction = .densifiedMinhash
          · exact h
          · rw [if_neg h] at h0; exact absurd rfl h0
        have hp2 := (hashParams_named hp).2
        rw [hh] at hp2
        have hin : a.inputs (j + 1) = size := by
          unfold NetArgs.inputs
          rw [if_neg (by omega), Nat.add_sub_cancel, q1]; rfl
        rw [hin] at hp2
        have := hp2.1
        refine .inr ⟨hs1, ?_⟩
        rw [fewest_named, if_pos hh]
        omega
  cases he : GoFloat.eq sp (GoFloat.one : F) with
  | true =>
    refine ⟨sp, g.obj.nodes.len, hsp, selectSafe_full cfg P label he _ _ _ _, fun sp' hj' hs' he' => ?_⟩
    rcases hnext sp' hj' hs' he' with h | ⟨-, h⟩
    · omega
    · exact h
  | false =>
    refine ⟨sp, 0, hsp, ?_, fun sp' hj' hs' he' => ?_⟩
    · rcases hor with ⟨h1, -⟩ | ⟨hm2, hm3, -, hpos, hp⟩
      · rw [he] at h1; cases h1
      · obtain ⟨e1, e2⟩ := kept_inputs hQ hj q6 q7
        rw [e1] at hp
        rw [e2]
        obtain ⟨v, v', hv⟩ := hk.hasher
        have hlab := fun (ht : ty = Softmax) => hfit.labels j sp size (by omega) hsp he (by rw [q2, ht]) q1
        have hkept := fun hm => selectSafe_kept P he hm hk hl' hp.1 (fun _ => hpos)
          (fun ht => ⟨(hlab ht).1, fun h4 => (hlab ht).2.1 (.inr h4)⟩) ((hashParams_fits hp hk.pos).2 _ v v' hv)
        by_cases hm1 : cfg.LayerMode = 1
        · exact hkept (.inl hm1)
        by_cases hm4 : cfg.LayerMode = 4
        · exact hkept (.inr hm4)
        by_cases hm : cfg.LayerMode = 2
        · obtain ⟨h1, h2, h3⟩ := hm2 hm
          have e3 : (g.obj.nodes.len : Int) = size := by rw [hl']; omega
          have hmem : size ∈ a.sizes := List.mem_of_getElem? q1
          obtain ⟨hK, hJ⟩ := hP hm
          refine selectSafe_sampled he hm (by omega) (by unfold mapLen; omega) (by rw [e3]; exact h2) (by rw [e3]; exact h3) ?_ hK ?_
          · intro hty
            obtain ⟨b1, b2, b3⟩ := hlab (by rw [← hk.oTy]; exact hty)
            rw [e3]
            exact ⟨b1, b2 (.inl hm), b3 hm⟩
          · intro r hr
            have := hJ r hr size hmem
            rw [show size.toNat = g.obj.nodes.len by omega] at this
            exact this
        · exact selectSafe_none P he hm1 hm (fun h hty => hm3 h (by rw [q2, ← hk.oTy, hty])) hm4
    · rcases hnext sp' hj' hs' he' with h | ⟨h, -⟩
      · omega
      · rw [he] at h; cases h

theorem dataFits_args {cfg : Config F} {a : NetArgs F} {off : Nat} {features : List (Pair F)} {label : List Int} (hfit : Fits cfg a off features label)
    (sp : F) (hsp : a.sparsity[off]? = some sp) : DataFits cfg (!GoFloat.eq sp GoFloat.one) a.dim.toNat features := by
  refine ⟨fun x hx => ?_, fun hs => ?_⟩
  · have := hfit.index x hx
    omega
  · have := hfit.count sp hsp (by cases h : GoFloat.eq sp (GoFloat.one : F) with | true => rw [h] at hs; cases hs | false => rfl)
    omega

theorem finishSafe_args [FloatIntDiv F] {cfg : Config F} {a : NetArgs F} {Q : List (State F)} (hQ : AllKept cfg a Q) (hl : (Q.length : Int) = a.layers)
    (hok : LayersOk cfg a 0) : FinishSafe cfg a.sparsity a.dim.toNat Q := by
  intro j g hg
  have hj := (List.getElem?_eq_some_iff.mp hg).1
  obtain ⟨size, prev, ty, k, l, rp, q1, q2, q3, q4, q5, hk, q6, q7⟩ := hQ j g hg
  obtain ⟨sp, hsp, hor⟩ := hok j size k l rp (by omega) q1 q3 q4 q5
  rw [Nat.zero_add] at hsp
  refine ⟨sp, hsp, fun hlt => ?_⟩
  rcases hor with ⟨-, h1⟩ | ⟨-, -, -, -, hp⟩
  · rw [hlt] at h1; cases h1
  · obtain ⟨e1, e2⟩ := kept_inputs hQ hj q6 q7
    rw [e1] at hp
    rw [e2]
    exact rehashSafe_kept hk hp

theorem train_run [FloatIntDiv F] {cfg : Config F} {P : Pace} {c : Int} {a : NetArgs F} {w : World F} {p : Ptr} {n : Network F} {Q : List (State F)}
    {es : List (Example F)} (iter : Int) (rehash rebuild : Bool) (hP : P.Enough cfg a.sizes) (hr : P.J w.rng) (h : Alive cfg c a w p n Q) (hok : LayersOk cfg a 0) (hb : es.length ≤ a.batch)
    (hfit : ∀ ex ∈ es, Fits cfg a 0 ex.Features ex.Labels) :
    ∃ k w', P.K k ∧ ∀ fuel, k ≤ fuel → processInput cfg fuel p c es iter rehash rebuild w = .ok ((GoFloat.zero, p), w') := by
  have hl : (Q.length : Int) = a.layers := by rw [← h.count, h.trainable.net.count]
  exact processInput_run iter rehash rebuild hr h (by omega)
    (fun Q' hQ' e hlen ex hex => ⟨forwardSafe_args hQ' (by omega) hlen hP hok (hfit ex hex), dataFits_args (hfit ex hex)⟩)
    (fun Q' hQ' e => finishSafe_args hQ' (by omega) hok)

theorem predict_run [FloatOrder F] [FloatIntDiv F] {cfg : Config F} {P : Pace} {c : Int} {a : NetArgs F} {w : World F} {p : Ptr} {n : Network F}
    {Q : List (State F)} {es : List (Example F)} (hP : P.Enough cfg a.sizes) (hr : P.J w.rng) (h : Alive cfg c a w p n Q) (hpos : 0 < a.layers) (hok : LayersOk cfg a a.layers.toNat) (hb : es.length ≤ a.batch)
    (hfit : ∀ ex ∈ es, Fits cfg a a.layers.toNat ex.Features []) :
    ∃ k m w', P.K k ∧ ∀ fuel, k ≤ fuel → predictClass cfg fuel p c es w = .ok ((m, p), w') := by
  have hl : (Q.length : Int) = a.layers := by rw [← h.count, h.trainable.net.count]
  have e : a.layers.toNat = Q.length := by omega
  rw [e] at hok hfit
  exact predictClass_run hr h (by omega) (by omega)
    (fun Q' hQ' e hlen ex hex => ⟨by rw [e]; exact forwardSafe_args hQ' (by omega) hlen hP hok (hfit ex hex), by rw [e]; exact dataFits_args (hfit ex hex)⟩)

end Goslide.Network
