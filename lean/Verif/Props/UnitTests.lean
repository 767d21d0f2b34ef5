import Verif.Props.Bucket
import Verif.Props.Lsh
import Verif.Props.Wta
import Verif.Props.Dwta
import Verif.Props.Minhash
import Verif.Props.Srp
/-
C78: the unit tests of the repository, for every random stream and every maphash seed. One theorem per test file of /repo;
each conjunct is one assertion (or one group of assertions of the same kind).
-/
namespace Goslide.Props
open Spec
variable {F : Type} [GoFloat F]

/-- Calls of `Add` with the ids `1000+i`, `i` from `a` to `b-1`: the slots, and the bucket after them. -/
def addRange {B : Type} (add : B → Int → Int × B) (a b : Nat) (x : B) : List Int × B :=
  (List.range' a (b - a)).foldl (fun s i => let r := add s.2 (1000 + (i : Nat)); (s.1 ++ [r.1], r.2)) ([], x)

/-- The integers from `a` to `b-1`. -/
def ints (a b : Nat) : List Int := (List.range' a (b - a)).map (fun (i : Nat) => (i : Int))

/-- The bucket after a call of `GetAll` (that does not panic). -/
def afterGetAll (b : Bucket.Bucket) : Bucket.Bucket := match Bucket.getAll b with
  | .ok (_, b') => b'
  | .error _ => b

/-- bucket/bucket_test.go. -/
theorem C78_bucket :
    -- TestBucketNew
    Bucket.new.isInit = -1 ∧ Bucket.new.index = 0 ∧ Bucket.new.counts = 0 ∧ Bucket.new.arr.length = 128 ∧
    Bucket.getSize Bucket.new = 0 ∧ Bucket.retrieve Bucket.new 0 = .ok 0 ∧ Bucket.retrieve Bucket.new 127 = .ok 0 ∧
    Bucket.retrieve Bucket.new 128 = .ok (-1) ∧ Bucket.getAll Bucket.new = .ok (none, Bucket.new) ∧
    -- TestBucketAdd: 10 elements, then up to 128, then 2 more
    (let (slots, b) := addRange Bucket.add 0 10 Bucket.new
     slots = ints 0 10 ∧ Bucket.getSize b = 10 ∧
     [0, 1, 9, 10, 127, 128].map (Bucket.retrieve b) = [.ok 1000, .ok 1001, .ok 1009, .ok 0, .ok 0, .ok (-1)] ∧
     (Bucket.getAll b).map Prod.fst = .ok (some (ints 1000 1010 ++ [-1] ++ List.replicate 117 0)) ∧
     let (slots, b) := addRange Bucket.add 10 128 (afterGetAll b)
     slots = ints 10 128 ∧ Bucket.getSize b = 128 ∧
     [0, 1, 9, 10, 127, 128].map (Bucket.retrieve b) = [.ok 1000, .ok 1001, .ok 1009, .ok 1010, .ok 1127, .ok (-1)] ∧
     Bucket.getAll b = .ok (some (ints 1000 1128), b) ∧
     let (slots, b) := addRange Bucket.add 128 130 b
     slots = ints 0 2 ∧ Bucket.getSize b = 130 ∧
     [0, 1, 2, 3, 127, 128].map (Bucket.retrieve b) = [.ok 1128, .ok 1129, .ok 1002, .ok 1003, .ok 1127, .ok (-1)] ∧
     Bucket.getAll b = .ok (some (ints 1128 1130 ++ ints 1002 1128), b)) := by
  decide +kernel

/-- bucket/fifo/fifo_test.go (`cap(slice)` is the number of cells of `back`). -/
theorem C78_fifo :
    -- TestFifoBucketNew
    Fifo.new.count = 0 ∧ Fifo.new.len = 0 ∧ Fifo.new.back.length = 128 ∧
    Fifo.retrieve Fifo.new 0 = .ok 0 ∧ Fifo.retrieve Fifo.new 127 = .ok 0 ∧ Fifo.retrieve Fifo.new 128 = .ok (-1) ∧
    Fifo.getAll Fifo.new = [] ∧
    -- TestFifoBucketAdd
    (let (slots, b) := addRange Fifo.add 0 10 Fifo.new
     slots = ints 0 10 ∧ b.count = 10 ∧ b.len = 10 ∧ b.back.length = 128 ∧
     [0, 1, 9, 10, 127, 128].map (Fifo.retrieve b) = [.ok 1000, .ok 1001, .ok 1009, .ok 0, .ok 0, .ok (-1)] ∧
     Fifo.getAll b = ints 1000 1010 ∧
     let (slots, b) := addRange Fifo.add 10 128 b
     slots = ints 10 128 ∧ b.count = 128 ∧ b.len = 128 ∧ b.back.length = 128 ∧
     [0, 1, 9, 10, 127, 128].map (Fifo.retrieve b) = [.ok 1000, .ok 1001, .ok 1009, .ok 1010, .ok 1127, .ok (-1)] ∧
     Fifo.getAll b = ints 1000 1128 ∧
     let (slots, b) := addRange Fifo.add 128 130 b
     slots = ints 0 2 ∧ b.count = 130 ∧ b.len = 128 ∧ b.back.length = 128 ∧
     [0, 1, 2, 3, 127, 128].map (Fifo.retrieve b) = [.ok 1128, .ok 1129, .ok 1002, .ok 1003, .ok 1127, .ok (-1)] ∧
     Fifo.getAll b = ints 1128 1130 ++ ints 1002 1128) := by
  decide +kernel

theorem indexLoop_total (hf : HashFunction) (s : Lsh.LSH) (hashes : List Int) (i : Nat)
    (hh : s.k * s.l ≤ hashes.length) (hr : s.k * s.l ≤ s.rand1.length) (hi : i < s.l) :
    ∀ (n j : Nat) (x : BitVec 64), j + n ≤ s.k → ∃ y, Lsh.indexLoop hf s hashes i n j x = .ok y := by
  intro n
  induction n with
  | zero => intro j x _; exact ⟨x, rfl⟩
  | succ n ih =>
    intro j x hj
    have hlt : s.k * i + j < s.k * s.l := by
      have : s.k * (i + 1) ≤ s.k * s.l := Nat.mul_le_mul_left _ hi
      rw [Nat.mul_add] at this
      omega
    have h1 : ∃ t, Lsh.term hf s hashes i j = .ok t := by
      unfold Lsh.term
      obtain ⟨a, ha⟩ : ∃ a, goGet hashes ((s.k * i + j : Nat) : Int) = .ok a :=
        ⟨_, by rw [goGet_ofNat, List.getElem?_eq_getElem (by omega)]⟩
      obtain ⟨b, hb⟩ : ∃ b, goGet s.rand1 ((s.k * i + j : Nat) : Int) = .ok b :=
        ⟨_, by rw [goGet_ofNat, List.getElem?_eq_getElem (by omega)]⟩
      cases hf <;> simp only [ha, hb, ok_bind] <;> exact ⟨_, rfl⟩
    obtain ⟨t, ht⟩ := h1
    rw [Lsh.indexLoop, ht, ok_bind]
    exact ih (j + 1) _ (by omega)

theorem hashesToIndex_total (hf : HashFunction) (s : Lsh.LSH) (hashes : List Int)
    (hh : s.k * s.l ≤ hashes.length) (hr : s.k * s.l ≤ s.rand1.length) :
    ∃ xs, Lsh.hashesToIndex hf s hashes = .ok xs ∧ xs.length = s.l := by
  have : ∀ l : List Nat, (∀ i ∈ l, i < s.l) → ∃ xs, l.mapM (fun i => Lsh.tableIndex hf s hashes i) = .ok xs ∧ xs.length = l.length := by
    intro l
    induction l with
    | nil => intro _; exact ⟨[], rfl, rfl⟩
    | cons i l ih =>
      intro h
      obtain ⟨xs, h1, h2⟩ := ih (fun j hj => h j (List.mem_cons_of_mem _ hj))
      obtain ⟨y, hy⟩ := indexLoop_total hf s hashes i hh hr (h i (List.mem_cons_self ..)) s.k 0 0#64 (by omega)
      have ht : ∃ z, Lsh.tableIndex hf s hashes i = .ok z := by
        unfold Lsh.tableIndex
        rw [hy, ok_bind]
        exact ⟨_, rfl⟩
      obtain ⟨z, hz⟩ := ht
      refine ⟨z :: xs, ?_, by simp [h2]⟩
      rw [List.mapM_cons, hz, ok_bind, h1, ok_bind]
      rfl
  obtain ⟨xs, h1, h2⟩ := this (List.range s.l) (fun i hi => List.mem_range.mp hi)
  exact ⟨xs, h1, by simpa using h2⟩

/-- lsh/lsh_test.go. -/
theorem C78_lsh (r : Rng) (hf : HashFunction) : ∃ s r', Lsh.new 3 4 10 r = .ok (s, r') ∧
    -- TestLSHNew
    s.k = 3 ∧ s.l = 4 ∧ s.rangePow = 10 ∧ s.buckets.length = 4 ∧ s.rand1.length = 12 ∧ (∀ b ∈ s.buckets, b.length = 0b10000000000) ∧
    (∀ n ∈ s.rand1, n ≠ 0 ∧ n % 2 ≠ 0) ∧
    -- TestLSHAdd
    (∃ s1 s2, Lsh.add s [1, 10, 100, 1000] 4321 = .ok ([0, 0, 0, 0], s1) ∧
      Lsh.add s1 [2, 10, 200, 1000] 4321 = .ok ([0, 1, 0, 1], s2)) ∧
    -- TestLSHAddSingle
    (∃ s1 s2 s3, Lsh.addSingle s 0 0 123 = .ok (0, s1) ∧ Lsh.addSingle s1 1 1 456 = .ok (0, s2) ∧
      Lsh.addSingle s2 0 0 789 = .ok (1, s3)) ∧
    -- TestLSHRetrieveRaw
    (∃ slots s1, Lsh.add s [1, 10, 100, 1000] 4321 = .ok (slots, s1) ∧
      Lsh.retrieveRaw s1 [1, 10, 100, 1000] = .ok [[4321], [4321], [4321], [4321]]) ∧
    -- TestLSHRetrieve, TestLSHClear
    (∃ slot s1, Lsh.addSingle s 2 3 123 = .ok (slot, s1) ∧ Lsh.retrieve s1 2 3 0 = .ok 123 ∧
      Lsh.retrieve (Lsh.clear s1) 2 3 0 = .ok 0) ∧
    -- TestLSHHashesToIndex, for every hash function
    (∃ xs, Lsh.hashesToIndex hf s [1, 2, 3, 4, 5, 6, 7, 8, 9, 10, 11, 12] = .ok xs ∧ xs.length = 4) := by
  obtain ⟨s, r', hnew, hk, hl, hrp, hrand, hrep⟩ := Lsh.new_ok 3 4 10 r (by decide)
  obtain ⟨hrl, hodd⟩ := C13_rand1_positiveOdd 3 4 10 r r' s hnew
  have hadd := fun (s1 : Lsh.LSH) (ops : List Lsh.Op) (hrun : Lsh.run s ops = .ok s1) (a b c d id : Int)
      (ha : 0 ≤ a ∧ a < 1024) (hb : 0 ≤ b ∧ b < 1024) (hc : 0 ≤ c ∧ c < 1024) (hd : 0 ≤ d ∧ d < 1024) =>
    (((C07_add_retrieve_ok_iff 3 4 10 (by decide) r r' s s1 ops hnew hrun [a, b, c, d] id).1 (by
      intro t ht
      match t, ht with
      | 0, _ => exact ⟨a, rfl, by omega⟩
      | 1, _ => exact ⟨b, rfl, by omega⟩
      | 2, _ => exact ⟨c, rfl, by omega⟩
      | 3, _ => exact ⟨d, rfl, by omega⟩)))
  have four : ∀ {α : Type} (l : List α) (a b c d : α), l.length = 4 → l[0]? = some a → l[1]? = some b →
      l[2]? = some c → l[3]? = some d → l = [a, b, c, d] := by
    intro α l a b c d hlen h0 h1 h2 h3
    match l, hlen with
    | [w, x, y, z], _ => simp_all
  obtain ⟨⟨⟨slots1, s1⟩, e1⟩, -⟩ := hadd s [] rfl 1 10 100 1000 4321 (by omega) (by omega) (by omega) (by omega)
  have hrun1 : Lsh.run s [.add [1, 10, 100, 1000] 4321] = .ok s1 := by
    show (do let s ← Lsh.step s _; Lsh.run s []) = _
    unfold Lsh.step
    simp only []
    rw [e1, ok_bind]
    rfl
  obtain ⟨hl1, hs1⟩ := C06_add_slots 3 4 10 (by decide) r r' s s s1 [] hnew rfl _ _ _ e1
  obtain rfl : slots1 = [0, 0, 0, 0] := four _ _ _ _ _ hl1 (hs1 0 1 (by decide) rfl) (hs1 1 10 (by decide) rfl)
    (hs1 2 100 (by decide) rfl) (hs1 3 1000 (by decide) rfl)
  obtain ⟨⟨⟨slots2, s2⟩, e2⟩, -⟩ := hadd s1 _ hrun1 2 10 200 1000 4321 (by omega) (by omega) (by omega) (by omega)
  obtain ⟨hl2, hs2⟩ := C06_add_slots 3 4 10 (by decide) r r' s s1 s2 _ hnew hrun1 _ _ _ e2
  obtain rfl : slots2 = [0, 1, 0, 1] := four _ _ _ _ _ hl2 (hs2 0 2 (by decide) rfl) (hs2 1 10 (by decide) rfl)
    (hs2 2 200 (by decide) rfl) (hs2 3 1000 (by decide) rfl)
  have hsingle := fun (s0 : Lsh.LSH) (ops : List Lsh.Op) (hrun : Lsh.run s ops = .ok s0) (t j : Nat) (id : Int) (ht : t < 4) (hj : j < 1024) =>
    (C06_addSingle_slot 3 4 10 (by decide) r r' s s0 ops hnew hrun t j id).2 t j rfl rfl ht hj
  have hrunS : ∀ (s0 s0' : Lsh.LSH) (ops : List Lsh.Op) (t j id slot : Int), Lsh.run s ops = .ok s0 →
      Lsh.addSingle s0 t j id = .ok (slot, s0') → Lsh.run s (ops ++ [.addSingle t j id]) = .ok s0' := by
    intro s0 s0' ops t j id slot h1 h2
    unfold Lsh.run at h1 ⊢
    rw [List.foldlM_append, h1, ok_bind]
    simp only [List.foldlM_cons, List.foldlM_nil, Lsh.step]
    rw [h2, ok_bind]
    rfl
  obtain ⟨a1, f1⟩ := hsingle s [] rfl 0 0 123 (by decide) (by decide)
  have g1 := hrunS s _ [] _ _ _ _ rfl f1
  obtain ⟨a2, f2⟩ := hsingle a1 _ g1 1 1 456 (by decide) (by decide)
  have g2 := hrunS _ _ _ _ _ _ _ g1 f2
  obtain ⟨a3, f3⟩ := hsingle a2 _ g2 0 0 789 (by decide) (by decide)
  obtain ⟨raw, hraw, hlr, hr4⟩ := C06_retrieveRaw_refines 3 4 10 (by decide) r r' s s1 _ hnew hrun1 [1, 10, 100, 1000] (by
      intro t ht
      match t, ht with
      | 0, _ => exact ⟨1, rfl, by decide, by decide⟩
      | 1, _ => exact ⟨10, rfl, by decide, by decide⟩
      | 2, _ => exact ⟨100, rfl, by decide, by decide⟩
      | 3, _ => exact ⟨1000, rfl, by decide, by decide⟩)
  have hcell : ∀ t j : Nat, t < 4 → ([1, 10, 100, 1000] : List Int)[t]? = some (j : Int) → raw[t]? = some [4321] := by
    intro t j ht hj
    obtain ⟨xs, h1, -, h3⟩ := hr4 t j ht hj
    have : cellHistory [Lsh.Op.add [1, 10, 100, 1000] 4321] t j = [4321] := by
      simp only [cellHistory, List.foldl_cons, List.foldl_nil, cellStep, if_pos hj, List.nil_append]
    rw [this] at h3
    have hx : xs = [4321] := List.perm_singleton.mp h3
    rw [h1, hx]
  obtain rfl : raw = [[4321], [4321], [4321], [4321]] := four _ _ _ _ _ hlr (hcell 0 1 (by decide) rfl) (hcell 1 10 (by decide) rfl)
    (hcell 2 100 (by decide) rfl) (hcell 3 1000 (by decide) rfl)
  obtain ⟨c1, k1⟩ := hsingle s [] rfl 2 3 123 (by decide) (by decide)
  have m1 := hrunS s _ [] _ _ _ _ rfl k1
  have m2 : Lsh.run s [.addSingle 2 3 123, .clear] = .ok (Lsh.clear c1) := by
    show (do let s ← Lsh.step s _; Lsh.run s [.clear]) = _
    simp only [Lsh.step]
    rw [show Lsh.addSingle s 2 3 123 = _ from k1, ok_bind]
    rfl
  refine ⟨s, r', hnew, hk, hl, hrp, by rw [hrep.wf.tables, hl], hrl, ?_, ?_, ⟨s1, s2, e1, e2⟩, ⟨a1, a2, a3, f1, f2, f3⟩,
    ⟨_, s1, e1, hraw⟩, ⟨_, c1, k1, ?_, ?_⟩, ?_⟩
  · intro b hb
    obtain ⟨i, hi⟩ := List.mem_iff_getElem?.mp hb
    exact hrep.wf.cells i b hi
  · intro n hn
    obtain ⟨h1, h2⟩ := hodd n hn
    omega
  · exact (C06_retrieve_refines 3 4 10 (by decide) r r' s c1 _ hnew m1 2 3 0 (by decide) (by decide)).2.2 0 123 (by decide) rfl rfl (by decide)
  · exact (C06_retrieve_refines 3 4 10 (by decide) r r' s _ _ hnew m2 2 3 0 (by decide) (by decide)).2.1 (by decide) (by decide)
  · have := hashesToIndex_total hf s [1, 2, 3, 4, 5, 6, 7, 8, 9, 10, 11, 12] (by rw [hk, hl]; decide) (by rw [hk, hl, hrl]; decide)
    rw [hl] at this
    exact this

/-- sparse_random_projection/sparse_random_projection_test.go. `vec` and `pairs` are any data of the shape used there. -/
theorem C78_srp [FloatIntDiv F] (r : Rng) (vec : List F) (hv : vec.length = 10) (pairs : List (Pair F)) :
    ∃ h r', Srp.new F 10 3 2 r = .ok (h, r') ∧
    -- TestSparseRandomProjectionNew
    h.dim = 10 ∧ h.numHashes = 3 ∧ h.samSize = 5 ∧ h.rows.length = 3 ∧
    (∀ row ∈ h.rows, row.length = 5 ∧ ∀ x ∈ row, x.1 < 10) ∧
    -- TestSparseRandomProjectionGetHash, TestSparseRandomProjectionGetHashSparse
    (∃ codes, Srp.getHash h vec = .ok codes ∧ codes.length = 3) ∧
    (Srp.getHashSparse h pairs).length = 3 := by
  obtain ⟨h, r', h1, h2, h3, h4, h5, h6⟩ := C27_samples F 10 3 2 r (by decide) (by decide) (by decide)
  refine ⟨h, r', h1, h2, h3, h5, h4, fun row hr => ⟨(h6 row hr).1, (h6 row hr).2.2⟩, ?_, by simp [Srp.getHashSparse, h4]⟩
  have : Srp.getHash h vec = .ok (h.rows.map (fun row => Srp.signBit
      (row.foldl (fun s x => Srp.signed s (vec.getD x.1 GoFloat.zero) x.2) (GoFloat.zero : F)))) := by
    unfold Srp.getHash
    apply mapM_ok_of_forall
    intro row hrow
    rw [Srp.denseSum_ok row vec (by rw [hv]; exact (h6 row hrow).2.2), ok_bind]
    rfl
  exact ⟨_, this, by simp [h4]⟩

theorem randInt_nonneg (n : Nat) : 0 ≤ (Lsh.randInt n).toInt := by
  unfold Lsh.randInt
  rw [BitVec.toInt_ofNat', Int.bmod_def]
  have : n % 2 ^ 63 < 2 ^ 63 := Nat.mod_lt _ (by decide)
  omega

theorem dwta_fields (n d : Nat) (r : Rng) : (Dwta.new n d r).1.permute = Wta.permuteCount n d ∧ (Dwta.new n d r).1.numHashes = n ∧
    (Dwta.new n d r).1.rangePow = d ∧ (Dwta.new n d r).1.logNumHash = Nat.log2 n ∧
    ∃ a b c, (Dwta.new n d r).1.randHash0 = Lsh.positiveOddRandomInt (Lsh.randInt a) ∧
      (Dwta.new n d r).1.randHash1 = Lsh.positiveOddRandomInt (Lsh.randInt b) ∧
      (Dwta.new n d r).1.randa = Lsh.positiveOddRandomInt (Lsh.randInt c) :=
  ⟨rfl, rfl, rfl, rfl, _, _, _, rfl, rfl, rfl⟩

/-- densified_wta_hash/densified_wta_hash_test.go, for any ten pairs and values. -/
theorem C78_dwta (r : Rng) (vec : List F) (hv : vec.length = 10) (pairs : List (Pair F)) (hp : pairs.length = 10)
    (h : Dwta.DensifiedWtaHash) (hh : (Dwta.new 3 10 r).1 = h) :
    -- TestDensifiedWtaHashNew
    h.numHashes = 3 ∧ h.rangePow = 10 ∧
    (∀ n ∈ [h.randHash0.toInt, h.randHash1.toInt, h.randa.toInt], n ≠ 0 ∧ n % 2 ≠ 0) ∧
    h.logNumHash = 1 ∧ h.permute = 3 ∧ h.indices.length = 30 ∧ h.pos.length = 30 ∧
    (∀ v ∈ h.indices, v < 4) ∧ (∀ v ∈ h.pos, v < 8) ∧
    -- TestDensifiedWtaHashGetHash, TestDensifiedWtaHashGetHashEasy, TestDensifiedWtaHashGetRandDoubleHash
    (∃ codes, Dwta.getHash h pairs = .ok codes ∧ codes.length = 3) ∧
    (∃ codes, Dwta.getHashEasy h vec = .ok codes ∧ codes.length = 3) ∧
    ∃ v, Dwta.getRandDoubleHash h.randHash0 h.logNumHash 1 2 = .ok v := by
  have h18 := C18_slots_partition 3 10 (by decide) r
  have h17 := C17_getHash_codes 3 10 (by decide) (by decide) r pairs (by omega)
  have h17e := C17_getHashEasy_codes 3 10 (by decide) (by decide) r vec (by omega)
  obtain ⟨hper, hnum, hrp, hlog, a, b, c, ra, rb, rc⟩ := dwta_fields 3 10 r
  rw [hh] at hper hnum hrp hlog ra rb rc
  rw [show Wta.permuteCount 3 10 = 3 by decide] at hper
  rw [show Nat.log2 3 = 1 by decide +kernel] at hlog
  dsimp only at h18
  rw [hh, hper] at h18
  rw [hh] at h17 h17e
  obtain ⟨h1, h2, h3, -, -⟩ := h18
  have hodd : ∀ n : Nat, (Lsh.positiveOddRandomInt (Lsh.randInt n)).toInt ≠ 0 ∧ (Lsh.positiveOddRandomInt (Lsh.randInt n)).toInt % 2 ≠ 0 := by
    intro n
    obtain ⟨a, b, -⟩ := C13_positiveOdd (Lsh.randInt n) (randInt_nonneg n)
    omega
  have hd : ∃ v, Dwta.getRandDoubleHash h.randHash0 h.logNumHash 1 2 = .ok v := by
    unfold Dwta.getRandDoubleHash
    dsimp only
    rw [if_pos (by omega)]
    exact ⟨_, rfl⟩
  refine ⟨hnum, hrp, ?_, hlog, hper, h1, h2, ?_, ?_, ?_, ?_, hd⟩
  · intro n hn
    simp only [List.mem_cons, List.not_mem_nil, or_false] at hn
    rw [ra, rb, rc] at hn
    rcases hn with rfl | rfl | rfl <;> exact hodd _
  · intro v hv
    obtain ⟨i, hi⟩ := List.mem_iff_getElem?.mp hv
    have hlt : i < h.indices.length := (List.getElem?_eq_some_iff.mp hi).1
    obtain ⟨b, q, e1, -, e3, e4⟩ := h3 i (by omega)
    rw [hi] at e1
    cases e1
    omega
  · intro v hv
    obtain ⟨i, hi⟩ := List.mem_iff_getElem?.mp hv
    have hlt : i < h.pos.length := (List.getElem?_eq_some_iff.mp hi).1
    obtain ⟨b, q, -, e2, e3, -⟩ := h3 i (by omega)
    rw [hi] at e2
    cases e2
    exact e3
  · obtain ⟨codes, e1, e2, -⟩ := h17
    exact ⟨codes, e1, e2⟩
  · obtain ⟨codes, e1, e2, -⟩ := h17e
    exact ⟨codes, e1, e2⟩

/-- densified_minhash/densified_minhash_test.go, for any ten pairs and values (and any hash seed). -/
theorem C78_minhash [FloatIntDiv F] (hash : Nat → BitVec 64) (r : Rng) (vec : List F) (hv : vec.length = 10) (pairs : List (Pair F))
    (hp : pairs.length = 10) (h : Minhash.DensifiedMinhash) (hh : (Minhash.new 3 10 hash r).1 = h) :
    -- TestDensifiedMinhashNew
    h.numHashes = 3 ∧ h.rangePow = 10 ∧
    (∀ n ∈ [h.randHash0.toInt, h.randHash1.toInt, h.randa.toInt], n ≠ 0 ∧ n % 2 ≠ 0) ∧ h.logNumHash = 1 ∧
    -- TestWtaHashGetHash, TestWtaHashGetHashEasy, TestWtaHashGetHashEasyDense
    (∃ codes, Minhash.getHash h [0, 1, 2, 0, 1, 2, 0, 1, 2, 0] vec [0, 1, 2] = .ok codes ∧ codes.length = 3) ∧
    (∃ codes, Minhash.getHashEasy h [0, 1, 2, 0, 1, 2, 0, 1, 2, 0] pairs [] 8 = .ok codes ∧ codes.length = 3) ∧
    (∃ codes, Minhash.getHashEasyDense h [0, 1, 2, 0, 1, 2, 0, 1, 2, 0] vec [] 8 = .ok codes ∧ codes.length = 3) ∧
    -- TestWtaHashGetRandDoubleHash
    (∃ v, Dwta.getRandDoubleHash h.randHash0 h.logNumHash 1 2 = .ok v) ∧
    -- TestWtaHashGetMap
    (Minhash.getMap F h 5).length = 5 ∧ ∀ v ∈ Minhash.getMap F h 5, 0 ≤ v ∧ v < 3 := by
  have hnum : h.numHashes = 3 := by rw [← hh]; rfl
  have hrp : h.rangePow = 10 := by rw [← hh]; rfl
  have hodd : ∀ n : Nat, (Lsh.positiveOddRandomInt (Lsh.randInt n)).toInt ≠ 0 ∧ (Lsh.positiveOddRandomInt (Lsh.randInt n)).toInt % 2 ≠ 0 := by
    intro n
    obtain ⟨a, b, -⟩ := C13_positiveOdd (Lsh.randInt n) (randInt_nonneg n)
    omega
  have hlog : h.logNumHash = 1 := by rw [← hh]; show Nat.log2 3 = 1; decide +kernel
  have hval : ∀ i : Nat, i < 10 → ValidIndex h.numHashes [0, 1, 2, 0, 1, 2, 0, 1, 2, 0] (i : Int) := by
    intro i hi
    refine ⟨i % 3, by rw [hnum]; exact Nat.mod_lt _ (by decide), ?_⟩
    unfold InBin
    revert i
    decide
  have hd : ∃ v, Dwta.getRandDoubleHash h.randHash0 h.logNumHash 1 2 = .ok v := by
    unfold Dwta.getRandDoubleHash
    dsimp only
    rw [if_pos (by omega)]
    exact ⟨_, rfl⟩
  have hmap := C23_map_range_partial (F := F) h 5 (by omega) (by omega) (by omega)
  have h25 := C25_succeeds h (by omega) [0, 1, 2, 0, 1, 2, 0, 1, 2, 0] (pairs.map (·.Value)) [] 8 (by simp [hp]) (by simpa [hp] using hval)
  have h25' := C25_succeeds h (by omega) [0, 1, 2, 0, 1, 2, 0, 1, 2, 0] vec [] 8 (by omega) (by rw [hv]; exact hval)
  rw [hnum] at hmap h25 h25'
  refine ⟨hnum, hrp, ?_, hlog, ?_, h25, h25', hd, hmap⟩
  · intro n hn
    simp only [List.mem_cons, List.not_mem_nil, or_false] at hn
    rw [← hh] at hn
    rcases hn with rfl | rfl | rfl <;> exact hodd _
  · obtain ⟨codes, e1, e2, -⟩ := C22_code_is_bin_max h (by omega) [0, 1, 2, 0, 1, 2, 0, 1, 2, 0] [0, 1, 2] vec (by simp [hv]) (by
      intro i hi
      have : i = 0 ∨ i = 1 ∨ i = 2 := by simp at hi; omega
      rcases this with rfl | rfl | rfl
      · exact ⟨0, by omega, by unfold InBin; decide⟩
      · exact ⟨1, by omega, by unfold InBin; decide⟩
      · exact ⟨2, by omega, by unfold InBin; decide⟩)
    exact ⟨codes, e1, by omega⟩

/-- The largest, respectively smallest, element of each bin of a WTA table. -/
theorem wta_monotone [FloatOrder F] (numHashes dim : Nat) (hd : 0 < dim) (r : Rng) (val : Nat → F) (R : Nat → Nat → Prop)
    (hfl : ∀ f, f < dim → GoFloat.lt (GoFloat.const (-9223372036854775808)) (val f) = true)
    (hR : ∀ i j, i < dim → j < dim → (GoFloat.lt (val i) (val j) = true ↔ R i j)) :
    ∃ codes, Wta.getHashDense (Wta.new numHashes dim r).1 ((List.range dim).map val) = .ok codes ∧ codes.length = numHashes ∧
      ∀ i, i < numHashes → ∃ c : Nat, codes[i]? = some (c : Int) ∧
        c ∈ ((Wta.new numHashes dim r).1.indices.drop (8 * i)).take 8 ∧
        ∀ f ∈ ((Wta.new numHashes dim r).1.indices.drop (8 * i)).take 8, f < dim ∧ ¬ R c f := by
  obtain ⟨codes, h1, h2, h3⟩ := C14_dense_argmax numHashes dim hd r val
  refine ⟨codes, h1, h2, ?_⟩
  intro i hi
  obtain ⟨feats, rfl, h4, h5, h6⟩ := h3 i hi
  rcases h6 with ⟨c, hc, -, pre, post, hs, hpre, hpost⟩ | ⟨-, hno⟩
  · refine ⟨c, hc, by rw [hs]; simp, ?_⟩
    intro f hf
    have hcd : c < dim := h5 c (by rw [hs]; simp)
    refine ⟨h5 f hf, ?_⟩
    intro hR'
    have hlt := (hR c f hcd (h5 f hf)).mpr hR'
    rw [hs] at hf
    rcases List.mem_append.mp hf with hf | hf
    · rcases hpre f hf with hn | hn
      · rw [FloatOrder.lt_nan_right _ _ hn] at hlt; cases hlt
      · have := FloatOrder.lt_trans _ _ _ hlt hn
        rw [FloatOrder.lt_irrefl] at this; cases this
    · rcases List.mem_cons.mp hf with rfl | hf
      · rw [FloatOrder.lt_irrefl] at hlt; cases hlt
      · rw [hpost f hf] at hlt; cases hlt
  · exfalso
    obtain ⟨f, hf⟩ : ∃ f, f ∈ ((Wta.new numHashes dim r).1.indices.drop (8 * i)).take 8 := by
      cases hl : ((Wta.new numHashes dim r).1.indices.drop (8 * i)).take 8 with
      | nil => rw [hl] at h4; cases h4
      | cons a l => exact ⟨a, List.mem_cons_self ..⟩
    have := hno f hf
    rw [hfl f (h5 f hf)] at this
    cases this

/-- wta_hash/wta_hash_test.go: any two lists of ten increasing values have the same codes, and any list of ten decreasing
values has other codes. -/
theorem C78_wta [FloatOrder F] (r : Rng) (a b c : Nat → F)
    (hfl : ∀ f, f < 10 → ∀ v ∈ [a, b, c], GoFloat.lt (GoFloat.const (-9223372036854775808)) (v f) = true)
    (ha : ∀ i j, i < 10 → j < 10 → (GoFloat.lt (a i) (a j) = true ↔ i < j))
    (hb : ∀ i j, i < 10 → j < 10 → (GoFloat.lt (b i) (b j) = true ↔ i < j))
    (hc : ∀ i j, i < 10 → j < 10 → (GoFloat.lt (c i) (c j) = true ↔ j < i))
    (h : Wta.WtaHash) (hh : (Wta.new 3 10 r).1 = h) (pairs : (Nat → F) → List (Pair F))
    (hpairs : ∀ v, pairs v = (List.range 10).map (fun (i : Nat) => ({ Index := (i : Int), Value := v i } : Pair F))) :
    -- TestWtaHashNew
    h.numHashes = 3 ∧ h.rangePow = 10 ∧ h.indices.length = 30 ∧
    (∀ i, i < 3 → (h.indices.drop (10 * i) |>.take 10).Perm (List.range 10)) ∧
    -- TestWtaHashGetHash
    (∃ x y, Wta.getHash h (pairs a) = .ok x ∧ Wta.getHash h (pairs b) = .ok x ∧ Wta.getHash h (pairs c) = .ok y ∧ x ≠ y) ∧
    -- TestWtaHashGetHashDense
    ∃ x y, Wta.getHashDense h ((List.range 10).map a) = .ok x ∧ Wta.getHashDense h ((List.range 10).map b) = .ok x ∧
      Wta.getHashDense h ((List.range 10).map c) = .ok y ∧ x ≠ y := by
  have hlen : h.indices.length = 30 := by
    rw [← hh]
    exact Wta.permLoop_length 10 3 (List.range 10) r (by simp)
  have hperm : ∀ i, i < 3 → (h.indices.drop (10 * i) |>.take 10).Perm (List.range 10) := by
    intro i hi
    rw [Nat.mul_comm]
    have := C14_table_is_permutations 3 10 (by decide) r i
    rw [hh] at this
    exact (this (by omega)).1
  have hdense : ∃ x y, Wta.getHashDense h ((List.range 10).map a) = .ok x ∧ Wta.getHashDense h ((List.range 10).map b) = .ok x ∧
      Wta.getHashDense h ((List.range 10).map c) = .ok y ∧ x ≠ y := by
    have hmono := fun (v : Nat → F) => wta_monotone 3 10 (by decide) r v
    rw [hh] at hmono
    obtain ⟨x, x1, x2, x3⟩ := hmono a (fun i j => i < j) (fun f hf => hfl f hf a (by simp)) ha
    obtain ⟨x', y1, y2, y3⟩ := hmono b (fun i j => i < j) (fun f hf => hfl f hf b (by simp)) hb
    obtain ⟨y, z1, z2, z3⟩ := hmono c (fun i j => j < i) (fun f hf => hfl f hf c (by simp)) hc
    have hxx : x = x' := by
      apply List.ext_getElem?
      intro i
      by_cases hi : i < 3
      · obtain ⟨u, u1, u2, u3⟩ := x3 i hi
        obtain ⟨v, v1, v2, v3⟩ := y3 i hi
        have e1 := (u3 v v2).2
        have e2 := (v3 u u2).2
        rw [u1, v1, show u = v by omega]
      · rw [List.getElem?_eq_none (by omega), List.getElem?_eq_none (by omega)]
    subst hxx
    refine ⟨x, y, x1, y1, z1, ?_⟩
    rintro rfl
    obtain ⟨u, u1, u2, u3⟩ := x3 0 (by decide)
    obtain ⟨v, v1, v2, v3⟩ := z3 0 (by decide)
    obtain rfl : u = v := by rw [u1] at v1; simp at v1; omega
    have hall : ∀ f ∈ (h.indices.drop (8 * 0)).take 8, f = u := by
      intro f hf
      have e1 := (u3 f hf).2
      have e2 := (v3 f hf).2
      omega
    have hnd : ((h.indices.drop (8 * 0)).take 8).Nodup := by
      have h10 := hperm 0 (by decide)
      have hn : ((h.indices.drop (10 * 0)).take 10).Nodup := h10.nodup_iff.mpr List.nodup_range
      have : (h.indices.drop (8 * 0)).take 8 = ((h.indices.drop (10 * 0)).take 10).take 8 := by
        rw [List.take_take]; rfl
      rw [this]
      exact hn.sublist (List.take_sublist ..)
    have hl8 : ((h.indices.drop (8 * 0)).take 8).length = 8 := by simp [hlen]
    match hm : (h.indices.drop (8 * 0)).take 8, hl8 with
    | p :: q :: rest, _ =>
      rw [hm] at hall hnd
      have e1 := hall p (by simp)
      have e2 := hall q (by simp)
      rw [e1, e2] at hnd
      simp at hnd
  refine ⟨by rw [← hh]; rfl, by rw [← hh]; rfl, hlen, hperm, ?_, hdense⟩
  obtain ⟨x, y, h1, h2, h3, h4⟩ := hdense
  have hp : ∀ v : Nat → F, Wta.getHash h (pairs v) = Wta.getHashDense h ((List.range 10).map v) := by
    intro v
    have := C16_positions_partial 3 10 r (pairs v)
    rw [hh] at this
    rw [this, hpairs, List.map_map]
    rfl
  exact ⟨x, y, by rw [hp, h1], by rw [hp, h2], by rw [hp, h3], h4⟩

-- the values of the test
example (r : Rng) := C78_wta (F := Rat) r (fun i => i + 1) (fun i => 10 * (i + 1)) (fun i => 10 - i) (by decide +kernel)
  (fun i j hi hj => by revert j; revert i; decide +kernel) (fun i j hi hj => by revert j; revert i; decide +kernel)
  (fun i j hi hj => by revert j; revert i; decide +kernel) _ rfl _ (fun _ => rfl)

end Goslide.Props
