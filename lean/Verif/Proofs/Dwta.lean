import Verif.Proofs.GoBasic
import Verif.Proofs.Shuffle
import Verif.Proofs.Argmax
import Verif.Proofs.Cells
import Verif.Proofs.Wta
import Verif.Model.Dwta
set_option linter.unusedSectionVars false
namespace Goslide.Dwta
open Spec
open Wta (permuteCount floorValue)
variable {F : Type} [GoFloat F]

theorem fillBlock_spec (off : Nat) : ∀ (nArray : List Nat) (j : Nat) (t : List Nat × List Nat),
    nArray.Nodup →
    (fillBlock off j nArray t).1.length = t.1.length ∧
    (fillBlock off j nArray t).2.length = t.2.length ∧
    (∀ idx, (∀ v ∈ nArray, idx ≠ off + v) →
      (fillBlock off j nArray t).1[idx]? = t.1[idx]? ∧ (fillBlock off j nArray t).2[idx]? = t.2[idx]?) ∧
    (∀ i v, nArray[i]? = some v → off + v < t.1.length → off + v < t.2.length →
      (fillBlock off j nArray t).1[off + v]? = some ((off + (j + i)) / 8) ∧
      (fillBlock off j nArray t).2[off + v]? = some ((off + (j + i)) % 8)) := by
  intro nArray
  induction nArray with
  | nil => intro j t _; simp [fillBlock]
  | cons w rest ih =>
    intro j t hnd
    obtain ⟨ti, tp⟩ := t
    have hw : w ∉ rest := (List.nodup_cons.mp hnd).1
    obtain ⟨h1, h2, h3, h4⟩ := ih (j + 1)
      (ti.set (off + w) ((off + j) / binSize), tp.set (off + w) ((off + j) % binSize))
      (List.nodup_cons.mp hnd).2
    simp only [fillBlock]
    refine ⟨by simpa using h1, by simpa using h2, ?_, ?_⟩
    · intro idx hidx
      obtain ⟨a, b⟩ := h3 idx (fun v hv => hidx v (by simp [hv]))
      have hne : off + w ≠ idx := fun h => hidx w (by simp) h.symm
      refine ⟨?_, ?_⟩
      · rw [a]; exact List.getElem?_set_ne hne
      · rw [b]; exact List.getElem?_set_ne hne
    · intro i v hv hl1 hl2
      cases i with
      | zero =>
        simp only [List.getElem?_cons_zero, Option.some.injEq] at hv
        subst hv
        obtain ⟨a, b⟩ := h3 (off + w) (fun v hv h => hw (by
          have : w = v := by omega
          rw [this]; exact hv))
        refine ⟨?_, ?_⟩
        · rw [a]; exact List.getElem?_set_self hl1
        · rw [b]; exact List.getElem?_set_self hl2
      | succ i =>
        simp only [List.getElem?_cons_succ] at hv
        obtain ⟨a, b⟩ := h4 i v hv (by simpa using hl1) (by simpa using hl2)
        have e : off + (j + 1 + i) = off + (j + (i + 1)) := by omega
        rw [e] at a b
        exact ⟨a, b⟩

theorem fillLoop_spec (dim : Nat) : ∀ (n p : Nat) (nArray : List Nat) (t : List Nat × List Nat) (r : Rng),
    nArray.Perm (List.range dim) → (p + n) * dim ≤ t.1.length → (p + n) * dim ≤ t.2.length →
    (fillLoop dim n p nArray t r).1.1.length = t.1.length ∧
    (fillLoop dim n p nArray t r).1.2.length = t.2.length ∧
    (∀ idx, idx < p * dim → (fillLoop dim n p nArray t r).1.1[idx]? = t.1[idx]? ∧
      (fillLoop dim n p nArray t r).1.2[idx]? = t.2[idx]?) ∧
    (∀ q, p ≤ q → q < p + n → ∃ π : List Nat, π.Perm (List.range dim) ∧
      ∀ j v, π[j]? = some v →
        (fillLoop dim n p nArray t r).1.1[q * dim + v]? = some ((q * dim + j) / 8) ∧
        (fillLoop dim n p nArray t r).1.2[q * dim + v]? = some ((q * dim + j) % 8)) := by
  intro n
  induction n with
  | zero => intro p nArray t r _ _ _; refine ⟨rfl, rfl, fun _ _ => ⟨rfl, rfl⟩, ?_⟩; intro q h1 h2; omega
  | succ n ih =>
    intro p nArray t r hp hl1 hl2
    have hperm := (shuffle_perm nArray r).trans hp
    have hnd : (shuffle nArray r).1.Nodup := (hperm.nodup_iff).mpr List.nodup_range
    obtain ⟨b1, b2, b3, b4⟩ := fillBlock_spec (p * dim) (shuffle nArray r).1 0 t hnd
    have hpn : p + 1 + n = p + (n + 1) := by omega
    obtain ⟨c1, c2, c3, c4⟩ := ih (p + 1) (shuffle nArray r).1
      (fillBlock (p * dim) 0 (shuffle nArray r).1 t) (shuffle nArray r).2 hperm
      (by rw [b1, hpn]; exact hl1) (by rw [b2, hpn]; exact hl2)
    simp only [fillLoop]
    have hmulp : p * dim + dim = (p + 1) * dim := by rw [Nat.succ_mul]
    have hmuln : (p + 1) * dim ≤ (p + (n + 1)) * dim := Nat.mul_le_mul_right _ (by omega)
    refine ⟨by rw [c1, b1], by rw [c2, b2], ?_, ?_⟩
    · intro idx hidx
      obtain ⟨x, y⟩ := c3 idx (by omega)
      obtain ⟨x', y'⟩ := b3 idx (fun v _ => by omega)
      exact ⟨x.trans x', y.trans y'⟩
    · intro q hq1 hq2
      by_cases hqp : q = p
      · subst hqp
        refine ⟨_, hperm, ?_⟩
        intro j v hv
        have hvd : v < dim := List.mem_range.mp (hperm.mem_iff.mp (List.mem_of_getElem? hv))
        obtain ⟨x, y⟩ := c3 (q * dim + v) (by omega)
        obtain ⟨x', y'⟩ := b4 j v hv (by omega) (by omega)
        rw [Nat.zero_add] at x' y'
        exact ⟨x.trans x', y.trans y'⟩
      · exact c4 q (by omega) (by omega)

/-- What `New` guarantees about the slot table. -/
structure SlotTable (dw : DensifiedWtaHash) (numHashes dim : Nat) : Prop where
  nh : dw.numHashes = numHashes
  rp : dw.rangePow = dim
  enough : numHashes * 8 ≤ dw.permute * dim
  len1 : dw.indices.length = dw.permute * dim
  len2 : dw.pos.length = dw.permute * dim
  perms : ∀ q, q < dw.permute → ∃ π : List Nat, π.Perm (List.range dim) ∧
      ∀ j v, π[j]? = some v →
        dw.indices[q * dim + v]? = some ((q * dim + j) / 8) ∧
        dw.pos[q * dim + v]? = some ((q * dim + j) % 8)

theorem new_slotTable (numHashes dim : Nat) (hd : 0 < dim) (r : Rng) :
    SlotTable (new numHashes dim r).1 numHashes dim := by
  have hm : dim * permuteCount numHashes dim = permuteCount numHashes dim * dim := Nat.mul_comm _ _
  obtain ⟨h1, h2, -, h4⟩ := fillLoop_spec dim (permuteCount numHashes dim) 0 (List.range dim)
    (List.replicate (dim * permuteCount numHashes dim) 0,
      List.replicate (dim * permuteCount numHashes dim) 0) r (List.Perm.refl _)
    (by simp [hm]) (by simp [hm])
  refine ⟨rfl, rfl, Wta.permuteCount_mul numHashes dim hd, ?_, ?_, ?_⟩
  · exact h1.trans (by simp [hm]; rfl)
  · exact h2.trans (by simp [hm]; rfl)
  · intro q hq
    have hq' : q < permuteCount numHashes dim := hq
    exact h4 q (by omega) (by omega)

/-- The slot number (position in the concatenated permutations) of a slot. -/
theorem SlotTable.slot {dw numHashes dim} (h : SlotTable dw numHashes dim) (p v : Nat)
    (hp : p < dw.permute) (hv : v < dim) :
    ∃ j, j < dim ∧ dw.indices[p * dim + v]? = some ((p * dim + j) / 8) ∧
      dw.pos[p * dim + v]? = some ((p * dim + j) % 8) := by
  obtain ⟨π, hπ, hs⟩ := h.perms p hp
  have hm : v ∈ π := hπ.mem_iff.mpr (List.mem_range.mpr hv)
  obtain ⟨j, hj⟩ := List.mem_iff_getElem?.mp hm
  have hjd : j < dim := by
    rcases Nat.lt_or_ge j dim with h' | h'
    · exact h'
    · rw [List.getElem?_eq_none (by rw [hπ.length_eq]; simpa using h')] at hj; simp at hj
  exact ⟨j, hjd, hs j v hj⟩

theorem block_eq {p q j i dim : Nat} (hj : j < dim) (hi : i < dim) (h : p * dim + j = q * dim + i) :
    p = q ∧ j = i := by
  have h1 : (p * dim + j) / dim = p := by
    rw [Nat.add_comm, Nat.add_mul_div_right _ _ (by omega), Nat.div_eq_of_lt hj, Nat.zero_add]
  have h2 : (q * dim + i) / dim = q := by
    rw [Nat.add_comm, Nat.add_mul_div_right _ _ (by omega), Nat.div_eq_of_lt hi, Nat.zero_add]
  have : p = q := by rw [← h1, ← h2, h]
  subst this
  exact ⟨rfl, by omega⟩

theorem SlotTable.slot_inj {dw numHashes dim} (h : SlotTable dw numHashes dim) (p v p' v' b q : Nat)
    (hp : p < dw.permute) (hv : v < dim) (hp' : p' < dw.permute) (hv' : v' < dim)
    (h1 : dw.indices[p * dim + v]? = some b) (h2 : dw.pos[p * dim + v]? = some q)
    (h3 : dw.indices[p' * dim + v']? = some b) (h4 : dw.pos[p' * dim + v']? = some q) :
    p = p' ∧ v = v' := by
  obtain ⟨π, hπ, hs⟩ := h.perms p hp
  obtain ⟨j, hj⟩ := List.mem_iff_getElem?.mp (hπ.mem_iff.mpr (List.mem_range.mpr hv))
  obtain ⟨π', hπ', hs'⟩ := h.perms p' hp'
  obtain ⟨j', hj'⟩ := List.mem_iff_getElem?.mp (hπ'.mem_iff.mpr (List.mem_range.mpr hv'))
  have lt : ∀ (π : List Nat) (j v : Nat), π.Perm (List.range dim) → π[j]? = some v → j < dim := by
    intro π j v hπ hj
    rcases Nat.lt_or_ge j dim with h' | h'
    · exact h'
    · rw [List.getElem?_eq_none (by rw [hπ.length_eq]; simpa using h')] at hj; simp at hj
  have hjd := lt _ _ _ hπ hj
  have hjd' := lt _ _ _ hπ' hj'
  obtain ⟨e1, e2⟩ := hs j v hj
  obtain ⟨e3, e4⟩ := hs' j' v' hj'
  rw [h1] at e1; rw [h2] at e2; rw [h3] at e3; rw [h4] at e4
  simp only [Option.some.injEq] at e1 e2 e3 e4
  have hn : p * dim + j = p' * dim + j' := by omega
  obtain ⟨hpp, hjj⟩ := block_eq hjd hjd' hn
  refine ⟨hpp, ?_⟩
  subst hpp hjj
  -- the permutation of one block is unique as a function
  have hnd : π.Nodup := hπ.nodup_iff.mpr List.nodup_range
  have hnd' : π'.Nodup := hπ'.nodup_iff.mpr List.nodup_range
  -- v' occurs in π at some position i; its slot is (p*dim+i), equal to that of j
  obtain ⟨i, hi⟩ := List.mem_iff_getElem?.mp (hπ.mem_iff.mpr (List.mem_range.mpr hv'))
  have hid := lt _ _ _ hπ hi
  obtain ⟨e5, e6⟩ := hs i v' hi
  rw [h3] at e5; rw [h4] at e6
  simp only [Option.some.injEq] at e5 e6
  have : i = j := by omega
  subst this
  rw [hj] at hi
  simpa using hi

theorem SlotTable.slot_surj {dw numHashes dim} (h : SlotTable dw numHashes dim) (hd : 0 < dim)
    (b q : Nat) (hb : b < numHashes) (hq : q < 8) :
    ∃ p v, p < dw.permute ∧ v < dim ∧ dw.indices[p * dim + v]? = some b ∧
      dw.pos[p * dim + v]? = some q := by
  have henough := h.enough
  have hlt : b * 8 + q < dw.permute * dim := by omega
  have hp : (b * 8 + q) / dim < dw.permute := (Nat.div_lt_iff_lt_mul hd).mpr hlt
  obtain ⟨π, hπ, hs⟩ := h.perms _ hp
  have hj : (b * 8 + q) % dim < π.length := by
    rw [hπ.length_eq, List.length_range]; exact Nat.mod_lt _ hd
  have hv : π[(b * 8 + q) % dim] < dim :=
    List.mem_range.mp (hπ.mem_iff.mp (List.getElem_mem hj))
  obtain ⟨e1, e2⟩ := hs _ _ (List.getElem?_eq_getElem hj)
  have hn : (b * 8 + q) / dim * dim + (b * 8 + q) % dim = b * 8 + q := by
    rw [Nat.mul_comm]; exact Nat.div_add_mod _ _
  rw [hn] at e1 e2
  refine ⟨_, _, hp, hv, ?_, ?_⟩
  · rw [e1]; congr 1; omega
  · rw [e2]; congr 1; omega

/-! ### The double loop over permutations and data -/

/-- All the (permutation, (value, position)) visits in program order. -/
def visits (permute : Nat) (data : List F) : List (Nat × (F × Nat)) :=
  (List.range permute).flatMap (fun p => data.zipIdx.map (fun x => (p, x)))

omit [GoFloat F] in
theorem mem_visits (permute : Nat) (data : List F) (y : Nat × (F × Nat)) :
    y ∈ visits permute data ↔ y.1 < permute ∧ data[y.2.2]? = some y.2.1 := by
  obtain ⟨p, v, i⟩ := y
  simp only [visits, List.mem_flatMap, List.mem_range, List.mem_map]
  constructor
  · rintro ⟨p', hp', ⟨v', i'⟩, hx, he⟩
    simp only [Prod.mk.injEq] at he
    obtain ⟨rfl, rfl, rfl⟩ := he
    exact ⟨hp', (zipIdx_mem _ _ _).mp hx⟩
  · rintro ⟨hp, hx⟩
    exact ⟨p, hp, (v, i), (zipIdx_mem _ _ _).mpr hx, rfl⟩

/-- The bin of a visit, if it is one of the hashes. -/
def binOf (dw : DensifiedWtaHash) (y : Nat × (F × Nat)) : Option Nat :=
  (dw.indices[y.1 * dw.rangePow + y.2.2]?).filter (fun b => decide (b < dw.numHashes))

/-- The position code of a visit. -/
def posOf (dw : DensifiedWtaHash) (y : Nat × (F × Nat)) : Nat :=
  (dw.pos[y.1 * dw.rangePow + y.2.2]?).getD 0

/-- The visits of bin `b` in program order. -/
def binVisits (dw : DensifiedWtaHash) (data : List F) (b : Nat) : List (Nat × (F × Nat)) :=
  (visits dw.permute data).filter (fun y => decide (binOf dw y = some b))

/-- Update of one item. -/
def itemUpd (dw : DensifiedWtaHash) (it : Item F) (y : Nat × (F × Nat)) : Item F :=
  if !it.init || GoFloat.lt it.value y.2.1 then
    { hash := (posOf dw y : Int), value := y.2.1, init := true } else it

omit [GoFloat F] in
theorem visit_lt {dw : DensifiedWtaHash} {dim : Nat} {data : List F}
    (hlen : data.length ≤ dim) {y : Nat × (F × Nat)} (hy : y ∈ visits dw.permute data) :
    y.1 < dw.permute ∧ y.2.2 < dim := by
  obtain ⟨h1, h2⟩ := (mem_visits _ _ _).mp hy
  refine ⟨h1, ?_⟩
  rcases Nat.lt_or_ge y.2.2 dim with h' | h'
  · exact h'
  · rw [List.getElem?_eq_none (by omega)] at h2; simp at h2

theorem fillItems_spec {dw numHashes dim} (h : SlotTable dw numHashes dim) (data : List F)
    (hlen : data.length ≤ dim) :
    ∃ items, fillItems dw data = .ok items ∧ items.length = numHashes ∧
      ∀ b, b < numHashes → items[b]? = some ((binVisits dw data b).foldl (itemUpd dw)
        { hash := 0, value := GoFloat.zero, init := false }) := by
  unfold fillItems
  rw [foldlM_flatMap_pairs (fun _ => data.zipIdx) (fun p items x => itemStep dw p items x)]
  obtain ⟨items, h1, h2, h3⟩ := foldlM_cells (fun (s : List (Item F)) (y : Nat × (F × Nat)) => itemStep dw y.1 s y.2)
    (fun s b => s[b]?) (binOf dw) (itemUpd dw) (fun s => s.length = numHashes)
    (visits dw.permute data) (by
      intro st y hy hst
      obtain ⟨hp, hi⟩ := visit_lt hlen hy
      obtain ⟨j, hj, e1, e2⟩ := h.slot y.1 y.2.2 hp hi
      have hb : binOf dw y = if (y.1 * dim + j) / 8 < numHashes then some ((y.1 * dim + j) / 8) else none := by
        unfold binOf
        rw [h.rp, e1, h.nh]
        simp [Option.filter]
      have hpos : posOf dw y = (y.1 * dim + j) % 8 := by
        unfold posOf; rw [h.rp, e2]; rfl
      unfold itemStep
      dsimp only
      rw [h.rp, h.nh, goGet_ofNat, e1, ok_bind]
      by_cases hlt : (y.1 * dim + j) / 8 < numHashes
      · rw [if_pos hlt] at hb ⊢
        have hget : st[(y.1 * dim + j) / 8]? = some (st[(y.1 * dim + j) / 8]'(by omega)) :=
          List.getElem?_eq_getElem _
        generalize hit : st[(y.1 * dim + j) / 8]'(by omega) = it at hget
        rw [goGet_ofNat, hget, ok_bind, goGet_ofNat, e2]
        simp only [ok_bind]
        by_cases hc : (!it.init || GoFloat.lt it.value y.2.1) = true
        · rw [if_pos hc]
          refine ⟨_, rfl, by simp [hst], ?_⟩
          intro b
          rw [hb]
          by_cases hbb : (y.1 * dim + j) / 8 = b
          · subst hbb
            rw [if_pos rfl, List.getElem?_set_self (by omega), hget]
            rw [Option.map_some, itemUpd, if_pos hc, hpos]
          · rw [if_neg (by simpa using hbb), List.getElem?_set_ne hbb]
        · rw [if_neg hc]
          refine ⟨_, rfl, hst, ?_⟩
          intro b
          rw [hb]
          by_cases hbb : (y.1 * dim + j) / 8 = b
          · subst hbb
            rw [if_pos rfl, hget]
            rw [Option.map_some, itemUpd, if_neg hc]
          · rw [if_neg (by simpa using hbb)]
      · rw [if_neg hlt] at hb ⊢
        refine ⟨st, rfl, hst, ?_⟩
        intro b
        rw [hb, if_neg (by simp)])
    (List.replicate dw.numHashes { hash := 0, value := GoFloat.zero, init := false })
    (by simp [h.nh])
  refine ⟨items, h1, h2, ?_⟩
  intro b hb
  rw [h3 b, List.getElem?_replicate, if_pos (by rw [h.nh]; exact hb)]
  rfl

theorem fillEasy_spec {dw numHashes dim} (h : SlotTable dw numHashes dim) (data : List F)
    (hlen : data.length ≤ dim) :
    ∃ st, fillEasy dw data = .ok st ∧ st.1.length = numHashes ∧
      ∀ b, b < numHashes →
        st.1[b]? = some ((binVisits dw data b).foldl
          (argStep (fun y => y.2.1) (fun y => (posOf dw y : Int))) (minInt64, floorValue)).1 := by
  unfold fillEasy
  rw [foldlM_flatMap_pairs (fun _ => data.zipIdx) (fun p st x => easyStep dw p st x)]
  obtain ⟨st, h1, h2, h3⟩ := foldlM_cells
    (fun (s : List Int × List F) (y : Nat × (F × Nat)) => easyStep dw y.1 s y.2)
    (fun s b => (s.1[b]?).bind (fun a => (s.2[b]?).map (fun v => (a, v)))) (binOf dw)
    (argStep (fun y => y.2.1) (fun y => (posOf dw y : Int)))
    (fun s => s.1.length = numHashes ∧ s.2.length = numHashes)
    (visits dw.permute data) (by
      intro st y hy hst
      obtain ⟨s1, s2⟩ := st
      obtain ⟨hl1, hl2⟩ := hst
      simp only at hl1 hl2
      obtain ⟨hp, hi⟩ := visit_lt hlen hy
      obtain ⟨j, hj, e1, e2⟩ := h.slot y.1 y.2.2 hp hi
      have hb : binOf dw y = if (y.1 * dim + j) / 8 < numHashes then some ((y.1 * dim + j) / 8) else none := by
        unfold binOf
        rw [h.rp, e1, h.nh]
        simp [Option.filter]
      have hpos : posOf dw y = (y.1 * dim + j) % 8 := by
        unfold posOf; rw [h.rp, e2]; rfl
      unfold easyStep
      dsimp only
      rw [h.rp, h.nh, goGet_ofNat, e1, ok_bind]
      by_cases hlt : (y.1 * dim + j) / 8 < numHashes
      · rw [if_pos hlt] at hb ⊢
        have hget1 : s1[(y.1 * dim + j) / 8]? = some (s1[(y.1 * dim + j) / 8]'(by omega)) :=
          List.getElem?_eq_getElem _
        have hget2 : s2[(y.1 * dim + j) / 8]? = some (s2[(y.1 * dim + j) / 8]'(by omega)) :=
          List.getElem?_eq_getElem _
        generalize s1[(y.1 * dim + j) / 8]'(by omega) = a at hget1
        generalize s2[(y.1 * dim + j) / 8]'(by omega) = v at hget2
        rw [goGet_ofNat, hget2, ok_bind, goGet_ofNat, e2]
        simp only [ok_bind]
        by_cases hc : GoFloat.lt v y.2.1 = true
        · rw [if_pos hc]
          refine ⟨_, rfl, by simp [hl1, hl2], ?_⟩
          intro b
          rw [hb]
          by_cases hbb : (y.1 * dim + j) / 8 = b
          · subst hbb
            simp only
            rw [if_pos trivial, List.getElem?_set_self (by omega), List.getElem?_set_self (by omega),
              hget1, hget2]
            simp [argStep, hc, hpos]
          · rw [if_neg (by simpa using hbb)]
            simp only
            rw [List.getElem?_set_ne hbb, List.getElem?_set_ne hbb]
        · rw [if_neg hc]
          refine ⟨_, rfl, ⟨hl1, hl2⟩, ?_⟩
          intro b
          rw [hb]
          by_cases hbb : (y.1 * dim + j) / 8 = b
          · subst hbb
            simp only
            rw [if_pos trivial, hget1, hget2]
            simp [argStep, hc]
          · rw [if_neg (by simpa using hbb)]
      · rw [if_neg hlt] at hb ⊢
        refine ⟨_, rfl, ⟨hl1, hl2⟩, ?_⟩
        intro b
        rw [hb, if_neg (by simp)])
    (List.replicate dw.numHashes minInt64, List.replicate dw.numHashes floorValue)
    (by simp [h.nh])
  refine ⟨st, h1, h2.1, ?_⟩
  intro b hb
  have := h3 b
  simp only [List.getElem?_replicate, if_pos (show b < dw.numHashes by rw [h.nh]; exact hb),
    Option.bind_some, Option.map_some] at this
  have hl : b < st.1.length := by rw [h2.1]; exact hb
  have hl2 : b < st.2.length := by rw [h2.2]; exact hb
  rw [List.getElem?_eq_getElem hl, List.getElem?_eq_getElem hl2] at this
  simp only [Option.bind_some, Option.map_some, Option.some.injEq] at this
  rw [List.getElem?_eq_getElem hl]
  unfold binVisits
  rw [← this]

/-! ### Densification -/

/-- The bin probed at `count` for the empty bin `i`. -/
def probed (randHash0 : BitVec 64) (logNumHash numHashes i count : Nat) : Nat :=
  min (((randHash0 * (((BitVec.ofNat 64 i + 1#64) <<< 6) + BitVec.ofNat 64 count)) <<< 3) >>>
    (32 - logNumHash)).toNat (numHashes - 1)

theorem probed_lt (randHash0 : BitVec 64) (logNumHash numHashes i count : Nat) (h : 0 < numHashes) :
    probed randHash0 logNumHash numHashes i count < numHashes := by
  unfold probed; omega

theorem getRandDoubleHash_ok (randHash0 : BitVec 64) (logNumHash numHashes i count : Nat)
    (hl : logNumHash ≤ 31) (h : 0 < numHashes) :
    ∃ v, getRandDoubleHash randHash0 logNumHash i count = .ok v ∧
      minInt v ((numHashes : Int) - 1) = (probed randHash0 logNumHash numHashes i count : Int) := by
  refine ⟨_, by unfold getRandDoubleHash; rw [if_pos (by omega)], ?_⟩
  have hlt : (((randHash0 * (((BitVec.ofNat 64 i + 1#64) <<< 6) + BitVec.ofNat 64 count)) <<< 3) >>>
    (32 - logNumHash)).toNat < 2 ^ 63 := by
    rw [BitVec.toNat_ushiftRight, Nat.shiftRight_eq_div_pow]
    generalize ((randHash0 * (((BitVec.ofNat 64 i + 1#64) <<< 6) + BitVec.ofNat 64 count)) <<< 3) = x
    have hx := x.isLt
    have h2 : 2 ^ 1 ≤ 2 ^ (32 - logNumHash) := Nat.pow_le_pow_right (by omega) (by omega)
    have : x.toNat / 2 ^ (32 - logNumHash) ≤ x.toNat / 2 ^ 1 := Nat.div_le_div_left h2 (by decide)
    omega
  rw [BitVec.toInt_eq_toNat_of_lt (by omega)]
  unfold minInt probed
  split <;> omega

/-- `probe` returns the hash of the first initialised item among the bins probed at counts
`101-n .. 100`, or 0 when there is none. -/
theorem probe_spec (dw : DensifiedWtaHash) (items : List (Item F)) (i : Nat)
    (hl : dw.logNumHash ≤ 31) (hn : 0 < dw.numHashes) (hlen : items.length = dw.numHashes) :
    ∀ n, n ≤ 100 →
      (∃ c it, 101 - n ≤ c ∧ c ≤ 100 ∧
        items[probed dw.randHash0 dw.logNumHash dw.numHashes i c]? = some it ∧ it.init = true ∧
        (∀ c' it', 101 - n ≤ c' → c' < c →
          items[probed dw.randHash0 dw.logNumHash dw.numHashes i c']? = some it' → it'.init = false) ∧
        probe dw items i n = .ok it.hash) ∨
      ((∀ c it, 101 - n ≤ c → c ≤ 100 →
        items[probed dw.randHash0 dw.logNumHash dw.numHashes i c]? = some it → it.init = false) ∧
        probe dw items i n = .ok 0) := by
  intro n
  induction n with
  | zero =>
    intro _
    right
    refine ⟨fun c it h1 h2 => by omega, ?_⟩
    obtain ⟨v, hv, hm⟩ := getRandDoubleHash_ok dw.randHash0 dw.logNumHash dw.numHashes i 101 hl hn
    rw [probe, hv, ok_bind, hm]
    dsimp only
    rw [goGet_ok_of_lt items (probed dw.randHash0 dw.logNumHash dw.numHashes i 101)
      (by rw [hlen]; exact probed_lt _ _ _ _ _ hn)]
    rfl
  | succ n ih =>
    intro hle
    obtain ⟨v, hv, hm⟩ := getRandDoubleHash_ok dw.randHash0 dw.logNumHash dw.numHashes i (100 - n) hl hn
    have hlt : probed dw.randHash0 dw.logNumHash dw.numHashes i (100 - n) < items.length := by
      rw [hlen]; exact probed_lt _ _ _ _ _ hn
    have hp : probe dw items i (n + 1) =
        if (items[probed dw.randHash0 dw.logNumHash dw.numHashes i (100 - n)]).init then
          .ok (items[probed dw.randHash0 dw.logNumHash dw.numHashes i (100 - n)]).hash
        else probe dw items i n := by
      rw [probe, hv, ok_bind, hm]
      dsimp only
      rw [goGet_ok_of_lt _ _ hlt, ok_bind]
      rfl
    have e : 101 - (n + 1) = 100 - n := by omega
    rw [e]
    by_cases hin : (items[probed dw.randHash0 dw.logNumHash dw.numHashes i (100 - n)]).init = true
    · left
      refine ⟨100 - n, _, Nat.le_refl _, by omega, List.getElem?_eq_getElem hlt, hin, ?_, ?_⟩
      · intro c' it' h1 h2; omega
      · rw [hp, if_pos hin]
    · have hnin : (items[probed dw.randHash0 dw.logNumHash dw.numHashes i (100 - n)]).init = false := by
        simpa using hin
      rw [if_neg hin] at hp
      rcases ih (by omega) with ⟨c, it, h1, h2, h3, h4, h5, h6⟩ | ⟨h1, h2⟩
      · left
        refine ⟨c, it, by omega, h2, h3, h4, ?_, by rw [hp, h6]⟩
        intro c' it' hc1 hc2 hc3
        by_cases hc : c' = 100 - n
        · subst hc
          rw [List.getElem?_eq_getElem hlt] at hc3
          simp only [Option.some.injEq] at hc3
          rw [← hc3]; exact hnin
        · exact h5 c' it' (by omega) hc2 hc3
      · right
        refine ⟨?_, by rw [hp, h2]⟩
        intro c it hc1 hc2 hc3
        by_cases hc : c = 100 - n
        · subst hc
          rw [List.getElem?_eq_getElem hlt] at hc3
          simp only [Option.some.injEq] at hc3
          rw [← hc3]; exact hnin
        · exact h1 c it (by omega) hc2 hc3

/-- `probeEasy` is `probe` on the items whose `init` flag is "not MinInt64". -/
theorem probeEasy_eq (dw : DensifiedWtaHash) (items : List (Item F)) (hashes : List Int)
    (hlen : items.length = hashes.length)
    (hrel : ∀ (b : Nat) (it : Item F) (h : Int), items[b]? = some it → hashes[b]? = some h →
      (it.init = true ∧ it.hash = h ∧ h ≠ minInt64) ∨ (it.init = false ∧ h = minInt64)) (i : Nat) :
    ∀ n, probeEasy dw hashes i n = probe dw items i n := by
  have hget : ∀ idx, (∃ e, goGet items idx = .error e ∧ goGet hashes idx = .error e) ∨
      (∃ it h, goGet items idx = .ok it ∧ goGet hashes idx = .ok h ∧
        ((it.init = true ∧ it.hash = h ∧ h ≠ minInt64) ∨ (it.init = false ∧ h = minInt64))) := by
    intro idx
    unfold goGet
    split
    · exact Or.inl ⟨_, rfl, rfl⟩
    · by_cases hl : idx.toNat < items.length
      · right
        have h1 := List.getElem?_eq_getElem hl
        have h2 := List.getElem?_eq_getElem (show idx.toNat < hashes.length by omega)
        refine ⟨_, _, by rw [h1], by rw [h2], hrel _ _ _ h1 h2⟩
      · left
        rw [List.getElem?_eq_none (by omega), List.getElem?_eq_none (by omega)]
        exact ⟨_, rfl, rfl⟩
  intro n
  induction n with
  | zero =>
    rw [probeEasy, probe]
    congr 1
    funext v
    dsimp only
    rcases hget (minInt v ((dw.numHashes : Int) - 1)) with ⟨e, h1, h2⟩ | ⟨it, h, h1, h2, -⟩
    · rw [h1, h2]; rfl
    · rw [h1, h2]; rfl
  | succ n ih =>
    rw [probeEasy, probe]
    congr 1
    funext v
    dsimp only
    rcases hget (minInt v ((dw.numHashes : Int) - 1)) with ⟨e, h1, h2⟩ | ⟨it, h, h1, h2, hr⟩
    · rw [h1, h2]; rfl
    · rw [h1, h2, ok_bind, ok_bind]
      rcases hr with ⟨ha, hb, hc⟩ | ⟨ha, hb⟩
      · rw [if_pos hc, ha, ← hb]; rfl
      · rw [if_neg (by simpa using hb), ha, ih]; rfl

end Goslide.Dwta
