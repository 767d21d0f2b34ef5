import Verif.Proofs.NetworkLife
import Verif.Proofs.LayerMode4
import Verif.Proofs.LshSmall
import Verif.Spec.Active
/-
How many nodes the selection can pick, and that it picks the labels.
-/
set_option linter.unusedSectionVars false
namespace Goslide.Layer
open Goslide Node Lsh Configuration Spec.Node Spec.Network
variable {F : Type} [GoFloat F]

/-! ### Mode 1 -/

theorem count_three : ∀ {A L : List Int}, A.Nodup → (∀ y ∈ A, 3 ≤ L.count y) → 3 * A.length ≤ L.length
  | [], L, _, _ => by simp
  | y :: A, L, hn, h => by
    obtain ⟨hy, hA⟩ := List.nodup_cons.mp hn
    have := count_three (A := A) (L := L.filter (fun x => x != y)) hA (fun z hz => by
      have hne : z ≠ y := fun e => hy (e ▸ hz)
      rw [List.count_filter (by simpa using hne)]
      exact h z (by simp [hz]))
    have hlen : L.length = L.count y + (L.filter (fun x => x != y)).length := by
      have := List.length_eq_countP_add_countP (fun x => x == y) (l := L)
      rw [List.count, this, List.countP_eq_length_filter (p := fun a => decide ¬(a == y) = true)]
      congr 3
      funext a
      simp [bne]
      rfl
    have := h y (by simp)
    rw [List.length_cons]
    omega

theorem mode1_few (softmax : Bool) (l : Int) (label : List Int) (actives : List (List Int)) (order : Rng) :
    3 * (mode1 softmax l label actives order).1.length ≤ actives.flatten.length + 3 * (if softmax then label.length else 0) := by
  obtain ⟨hn, hm⟩ := mode1_spec softmax l label actives order
  generalize (mode1 softmax l label actives order).1 = A at hn hm
  have h1 : A.length = (A.filter (fun y => decide (softmax = true ∧ y ∈ label))).length + (A.filter (fun y => !decide (softmax = true ∧ y ∈ label))).length := by
    rw [← List.countP_eq_length_filter, ← List.countP_eq_length_filter, List.length_eq_countP_add_countP (fun y => decide (softmax = true ∧ y ∈ label))]
    congr 2
    funext a
    simp
  have h2 : (A.filter (fun y => decide (softmax = true ∧ y ∈ label))).length ≤ (if softmax then label.length else 0) := by
    cases softmax with
    | false => simp
    | true =>
      refine nodup_length_le (hn.filter _) (fun y hy => ?_)
      have := (List.mem_filter.mp hy).2
      simpa using this
  have h3 := count_three (A := A.filter (fun y => !decide (softmax = true ∧ y ∈ label))) (L := actives.flatten) (hn.filter _) (fun y hy => by
    obtain ⟨a, b⟩ := List.mem_filter.mp hy
    have := (hm y).mp a
    rw [if_neg (fun hh => by simp [hh] at b)] at this
    omega)
  omega

/-! ### Mode 2 -/

theorem goSet_length {α : Type} {l l' : List α} {i : Int} {v : α} (h : goSet l i v = .ok l') : l'.length = l.length ∧ 0 ≤ i ∧ i < l.length ∧ l' = l.set i.toNat v := by
  unfold goSet at h
  split at h
  · cases h
  · split at h
    · cases h
      exact ⟨by simp, by omega, by omega, rfl⟩
    · cases h

theorem mode2Labels_ok : ∀ (label : List Int) (i : Nat) (act act' : List Int) (bs bs' : List Bool), mode2Labels label i (act, bs) = .ok (act', bs') →
    act'.length = act.length ∧ act'.take (i + label.length) = act.take i ++ label
  | [], i, act, act', bs, bs', h => by cases h; simp
  | y :: label, i, act, act', bs, bs', h => by
    rw [mode2Labels, bind_ok_iff] at h
    obtain ⟨act1, h1, h⟩ := h
    rw [bind_ok_iff] at h
    obtain ⟨bs1, h2, h⟩ := h
    obtain ⟨e1, e2, e3, rfl⟩ := goSet_length h1
    obtain ⟨a, b⟩ := mode2Labels_ok label (i + 1) _ act' _ bs' h
    refine ⟨a.trans e1, ?_⟩
    rw [List.length_cons, show i + (label.length + 1) = i + 1 + label.length by omega, b, Int.toNat_natCast, take_set_succ y (by omega), List.append_assoc]
    rfl

theorem mode2Loop_ok (n : Nat) : ∀ (fuel tmp : Nat) (act act' : List Int) (bs : List Bool) (r r' : Rng), mode2Loop n fuel tmp (act, bs) r = .ok (act', r') →
    act'.length = act.length ∧ act'.take tmp = act.take tmp := by
  intro fuel
  induction fuel with
  | zero =>
    intro tmp act act' bs r r' h
    rw [mode2Loop] at h
    split at h
    · cases h
    · cases h; exact ⟨rfl, rfl⟩
  | succ fuel ih =>
    intro tmp act act' bs r r' h
    rw [mode2Loop] at h
    split at h
    · rw [bind_ok_iff] at h
      obtain ⟨⟨v, r1⟩, h1, h⟩ := h
      dsimp only at h
      rw [bind_ok_iff] at h
      obtain ⟨b, h2, h⟩ := h
      cases b with
      | true => exact ih _ _ _ _ _ _ h
      | false =>
        rw [if_neg (by decide), bind_ok_iff] at h
        obtain ⟨act1, h3, h⟩ := h
        rw [bind_ok_iff] at h
        obtain ⟨bs1, h4, h⟩ := h
        obtain ⟨e1, -, -, rfl⟩ := goSet_length h3
        obtain ⟨a, b⟩ := ih _ _ _ _ _ _ h
        refine ⟨a.trans e1, ?_⟩
        have := congrArg (List.take tmp) b
        rwa [List.take_take, List.take_take, Nat.min_eq_left (by omega), Int.toNat_natCast, List.take_set_of_le (Nat.le_refl _)] at this
    · cases h; exact ⟨rfl, rfl⟩

theorem mode2_ok {fuel n : Nat} {sp : F} {label act : List Int} {r r' : Rng} (h : mode2 fuel n sp label r = .ok (act, r')) :
    (act.length : Int) = GoFloat.floorInt (GoFloat.mul (GoFloat.ofInt (n : Int)) sp) ∧ ∀ y ∈ label, y ∈ act := by
  unfold mode2 at h
  dsimp only at h
  split at h
  · cases h
  · rw [bind_ok_iff] at h
    obtain ⟨⟨act1, bs1⟩, h1, h⟩ := h
    obtain ⟨a1, a2⟩ := mode2Labels_ok _ _ _ _ _ _ h1
    obtain ⟨b1, b2⟩ := mode2Loop_ok _ _ _ _ _ _ _ _ h
    rw [List.length_replicate] at a1
    refine ⟨by omega, fun y hy => ?_⟩
    rw [Nat.zero_add] at a2
    refine List.mem_of_mem_take (i := label.length) ?_
    rw [b2, a2]
    exact List.mem_append_right _ hy

/-! ### Mode 3 -/

theorem nodeScores_length {h : Heap F} : ∀ {ps : List Ptr} {ws : List (List F × F)} {h' : Heap F}, nodeScores ps h = .ok (ws, h') → ws.length = ps.length
  | [], ws, h', e => by cases e; rfl
  | p :: ps, ws, h', e => by
    unfold nodeScores at e
    replace e := M.bind_eq_ok e
    obtain ⟨s, h1, -, e⟩ := e
    replace e := M.bind_eq_ok e
    obtain ⟨w, h2, -, e⟩ := e
    replace e := M.bind_eq_ok e
    obtain ⟨b, h3, -, e⟩ := e
    replace e := M.bind_eq_ok e
    obtain ⟨rest, h4, h5, e⟩ := e
    cases e
    rw [List.length_cons, List.length_cons, nodeScores_length h5]

theorem mode3_ok {sp : F} {label : List Int} {cur : List (Pair F)} {ws : List (List F × F)} {act : List Int} {found : Int} (h : mode3 sp label cur ws = .ok (act, found)) :
    ∀ y : Int, 0 ≤ y → y < ws.length → y ∈ act := by
  unfold mode3 at h
  dsimp only at h
  split at h
  · cases h
  · rw [bind_ok_iff] at h
    obtain ⟨sw, h1, h⟩ := h
    have hidx := mode3Scores_spec label cur ws 0 sw h1
    have hp := sortPairs_perm sw
    intro y h0 hy
    have hmem : y ∈ (sortPairs sw).map (·.Index) := by
      rw [(hp.map _).mem_iff, hidx]
      exact List.mem_map.mpr ⟨y.toNat, by rw [List.mem_range']; exact ⟨y.toNat, by omega, by omega⟩, by omega⟩
    by_cases hlen : 0 + (sortPairs sw).length ≤ (List.replicate (GoFloat.floorInt (GoFloat.mul (GoFloat.ofInt (ws.length : Int)) sp)).toNat (0 : Int)).length
    · rw [mode3Copy_run label _ _ _ _ hlen] at h
      cases h
      simp [hmem]
    · rw [mode3Copy_error label _ _ _ _ (by omega) (by omega)] at h
      cases h

/-! ### Mode 4 -/

theorem foldlM_count_size : ∀ (ids : List Int) (st st' : List Int × Int), ids.foldlM mode4Count st = .ok st' → st'.2 ≤ st.2 + ids.length
  | [], st, st', h => by cases h; simp
  | y :: ids, st, st', h => by
    rw [List.foldlM_cons, bind_ok_iff] at h
    obtain ⟨st1, h1, h⟩ := h
    have := foldlM_count_size ids st1 st' h
    unfold mode4Count at h1
    rw [bind_ok_iff] at h1
    obtain ⟨c, -, h1⟩ := h1
    have hl : st1.2 ≤ st.2 + 1 := by
      split at h1 <;>
      · rw [bind_ok_iff] at h1
        obtain ⟨cs, -, h1⟩ := h1
        cases h1
        dsimp only
        omega
    rw [List.length_cons]
    omega

theorem mode4Pad_size : ∀ (order : List Int) (st st' : List Int × Int), mode4Pad order st = .ok st' → st'.2 ≤ max st.2 1000
  | [], st, st', h => by cases h; omega
  | c :: order, (counts, size), st', h => by
    rw [mode4Pad] at h
    split at h
    · cases h; dsimp only; omega
    · rw [bind_ok_iff] at h
      obtain ⟨v, -, h⟩ := h
      split at h
      · rw [bind_ok_iff] at h
        obtain ⟨cs, -, h⟩ := h
        have := mode4Pad_size order _ _ h
        dsimp only at this ⊢
        omega
      · exact mode4Pad_size order _ _ h

theorem mode4Padding_size {n : Nat} {order : List Int} {st st' : List Int × Int} {r r' : Rng} (h : mode4Padding n order st r = .ok (st', r')) : st'.2 ≤ max st.2 1000 := by
  unfold mode4Padding at h
  split at h
  · rw [bind_ok_iff] at h
    obtain ⟨⟨start, r1⟩, -, h⟩ := h
    dsimp only at h
    rw [bind_ok_iff] at h
    obtain ⟨o, -, h⟩ := h
    rw [bind_ok_iff] at h
    obtain ⟨st1, h1, h⟩ := h
    have := mode4Pad_size _ _ _ h1
    split at h
    · rw [bind_ok_iff] at h
      obtain ⟨st2, h2, h⟩ := h
      cases h
      have := mode4Pad_size _ _ _ h2
      omega
    · cases h; exact this
  · cases h; omega

theorem mode4_few {softmax : Bool} {l : Int} {n : Nat} {order label : List Int} {actives : List (List Int)} {r r' : Rng} {act : List Int} {found : Int}
    (h : mode4 softmax l n order label actives r = .ok ((act, found), r')) :
    (act.length : Int) ≤ max 1000 (actives.flatten.length + (if softmax then label.length else 0 : Nat)) := by
  unfold mode4 at h
  dsimp only at h
  rw [bind_ok_iff] at h
  obtain ⟨counts, -, h⟩ := h
  rw [bind_ok_iff] at h
  obtain ⟨st, h1, h⟩ := h
  rw [bind_ok_iff] at h
  obtain ⟨⟨st', r1⟩, h2, h⟩ := h
  dsimp only at h
  rw [bind_ok_iff] at h
  obtain ⟨act', h3, h⟩ := h
  cases h
  have a := foldlM_count_size _ _ _ h1
  have b := mode4Padding_size h2
  have hs : (if decide (softmax = true ∧ 0 < label.length) = true then (label.length : Int) else 0) ≤ ((if softmax then label.length else 0 : Nat) : Int) := by
    cases softmax <;> simp
    split <;> omega
  have c : (act.length : Int) = st'.2 := by
    unfold mode4Collect at h3
    dsimp only at h3
    split at h3
    · cases h3
    · split at h3
      · cases h3
        rw [List.length_append, List.length_replicate]
        omega
      · cases h3
  dsimp only at a
  omega

end Goslide.Layer

namespace Goslide.Network
open Goslide Node Lsh Configuration Spec.Node Spec.Network Layer Xcrepo
variable {F : Type} [GoFloat F]

theorem candidates_few {cfg : Config F} {size prev ty k l rp : Int} {g : State F} (hk : Kept cfg size prev ty k l rp g) {hasher : Hasher} {cur : List (Pair F)} {actives : List (List Int)}
    (h : candidates cfg hasher g.tables cur = .ok actives) : (actives.flatten.length : Int) ≤ 128 * l := by
  obtain ⟨s0, r, r', ops, h1, h2, -⟩ := hk.tables
  obtain ⟨sm, e⟩ := small_new h1
  have sm' := small_run sm h2
  have e' := (run_shape h2).1
  unfold candidates at h
  rw [bind_ok_iff] at h
  obtain ⟨hs, -, h⟩ := h
  rw [bind_ok_iff] at h
  obtain ⟨ix, -, h⟩ := h
  have := small_raw sm' h
  have hl : (g.tables.l : Int) = l := by
    have : g.tables.l = s0.l := by first | exact (run_shape h2).1 | exact (run_shape h2).2.1 | exact (run_shape h2).2.2.1
    rw [this, e]
    exact Int.toNat_of_nonneg hk.pos.2.1
  omega

theorem activeSets_of {cfg : Config F} {c : Int} {a : NetArgs F} {w : World F} {p : Ptr} {n : Network F} {Q : List (State F)} (al : Alive cfg c a w p n Q) {k : Nat}
    {ex : Example F} {S : List (List Int)} (ht : TrainedOn n.sparsity Q k S) (hp : Picked cfg n.sparsity Q ex S) : ActiveSets cfg a ex S := by
  have hlen : S.length = Q.length := ht.active.1
  refine ⟨by rw [hlen, ← al.count, al.trainable.net.count], fun j ids hj => ?_⟩
  have hlt : j < Q.length := by have := (List.getElem?_eq_some_iff.mp hj).1; omega
  have hg : Q[j]? = some Q[j] := List.getElem?_eq_getElem hlt
  generalize Q[j] = g at hg
  obtain ⟨size, prev, ty, kk, l, rp, q1, q2, -, q4, -, hk, -⟩ := al.kept j g hg
  obtain ⟨sp, fuel, c', cur, v, v', found, ids', p1, p2, p3, p4, p5, ⟨order, p6, p7⟩, -⟩ := hp j g ids hg hj
  have hn := ht.nodup ids (List.mem_of_getElem? hj)
  obtain ⟨hr, sp2, hsp2, hfull⟩ := ht.active.2 j g ids hg hj
  rw [Nat.zero_add, p1] at hsp2
  cases hsp2
  have hsz := hk.nodes
  have hle : (ids.length : Int) ≤ size := by
    have := nodup_length_le (m := (List.range g.nodes.length).map (fun (i : Nat) => (i : Int))) hn (fun y hy => by
      obtain ⟨a1, a2⟩ := hr y hy
      exact List.mem_map.mpr ⟨y.toNat, List.mem_range.mpr (by omega), by omega⟩)
    rw [List.length_map, List.length_range] at this
    omega
  have hall : ids = (List.range g.nodes.length).map (fun (k : Nat) => (k : Int)) → ∀ id : Int, 0 ≤ id → id < size → id ∈ ids := by
    rintro rfl id h0 h1
    exact List.mem_map.mpr ⟨id.toNat, List.mem_range.mpr (by omega), by omega⟩
  have hty : ({ g.obj with cowId := c' } : Layer.Layer).nodeType = ty := hk.oTy
  have hobl : ({ g.obj with cowId := c' } : Layer.Layer).l = l := hk.oL
  have htab : v.lshs[({ g.obj with cowId := c' } : Layer.Layer).hashTables]? = some g.tables := p4
  have hnl : ({ g.obj with cowId := c' } : Layer.Layer).nodes.len = g.nodes.length := p5
  have hord : readSlice v.ints ({ g.obj with cowId := c' } : Layer.Layer).randNode = some order := p7
  have hl0 := hk.pos.2.1
  generalize ({ g.obj with cowId := c' } : Layer.Layer) = x at p2 hty hobl htab hnl hord
  refine ⟨size, ty, l, sp, q1, q2, q4, al.sparsity ▸ p1, hn, fun id hid => ?_, ?_, fun h => hall (hfull h), fun hsoft hmode => ?_⟩
  · have := hr id hid
    omega
  · unfold activeBound
    dsimp only
    cases hsp : GoFloat.eq sp GoFloat.one with
    | true => rw [if_pos rfl]; exact hle
    | false =>
      rw [if_neg (by decide)]
      by_cases h1 : cfg.LayerMode = 1
      · rw [if_pos h1]
        obtain ⟨s, actives, a1, a2, a3⟩ := select_mode1 hsp h1 p2
        rw [htab] at a1
        cases a1
        have := candidates_few hk a2
        have hf := mode1_few (x.nodeType = Softmax) x.l ex.Labels actives v.mapRng
        rw [a3, Option.getD_some] at p3
        rw [← p3] at hf
        have e : ((if (decide (x.nodeType = Softmax)) = true then ex.Labels.length else 0 : Nat) : Int) = if ty = Softmax then (ex.Labels.length : Int) else 0 := by
          rw [hty]; split <;> simp_all
        omega
      · rw [if_neg h1]
        by_cases h2 : cfg.LayerMode = 2
        · rw [if_pos h2]
          by_cases hs : ty = Softmax
          · rw [if_pos hs]
            rw [select_mode2 hsp h2 (by rw [hty, hs])] at p2
            cases hm : mode2 fuel x.nodes.len sp ex.Labels v.rng with
            | error e => rw [hm] at p2; cases p2
            | ok o =>
              obtain ⟨act, r⟩ := o
              rw [hm] at p2
              cases p2
              have := (mode2_ok hm).1
              rw [hnl, hsz] at this
              rw [Option.getD_some] at p3
              rw [← p3] at this
              exact Int.le_min.mpr ⟨hle, Int.le_of_eq this⟩
          · rw [if_neg hs]
            unfold select at p2
            dsimp only at p2
            rw [if_neg (by rw [hsp]; simp), if_neg h1, if_pos h2, if_neg (by simpa [hty] using hs)] at p2
            cases p2
            rw [p3]
            exact Int.le_refl 0
        · rw [if_neg h2]
          by_cases h3 : cfg.LayerMode = 3
          · rw [if_pos h3]
            by_cases hs : ty = Softmax
            · rw [if_pos hs]; exact hle
            · rw [if_neg hs]
              unfold select at p2
              dsimp only at p2
              rw [if_neg (by rw [hsp]; simp), if_neg h1, if_neg h2, if_pos h3, if_neg (by simpa [hty] using hs)] at p2
              cases p2
              rw [p3]
              exact Int.le_refl 0
          · rw [if_neg h3]
            by_cases h4 : cfg.LayerMode = 4
            · rw [if_pos h4]
              obtain ⟨s, actives, order', act, r, a1, a2, a3, a4, a5, a6⟩ := select_mode4 hsp h4 p2
              rw [htab] at a1
              cases a1
              have := candidates_few hk a2
              have hf := mode4_few a4
              rw [a5, Option.getD_some] at p3
              rw [← p3] at hf
              have e : ((if (decide (x.nodeType = Softmax)) = true then ex.Labels.length else 0 : Nat) : Int) = if ty = Softmax then (ex.Labels.length : Int) else 0 := by
                rw [hty]; split <;> simp_all
              omega
            · rw [if_neg h4]
              unfold select at p2
              dsimp only at p2
              rw [if_neg (by rw [hsp]; simp), if_neg h1, if_neg h2, if_neg h3, if_neg h4] at p2
              cases p2
              rw [p3]
              exact Int.le_refl 0
  · intro y hy y0 y1
    cases hsp : GoFloat.eq sp GoFloat.one with
    | true => exact hall (hfull hsp) y y0 y1
    | false =>
      have hxs : x.nodeType = Softmax := by rw [hty, hsoft]
      rcases hmode with hm | hm | hm | ⟨hm, hl3⟩
      · rw [select_mode2 hsp hm hxs] at p2
        cases hm : mode2 fuel x.nodes.len sp ex.Labels v.rng with
        | error e => rw [hm] at p2; cases p2
        | ok o =>
          obtain ⟨act, r⟩ := o
          rw [hm] at p2
          cases p2
          rw [p3]
          exact (mode2_ok hm).2 y hy
      · obtain ⟨ps, ws, act, b1, b2, b3, b4⟩ := select_mode3 hsp hm hxs p2
        rw [p3, b4]
        refine mode3_ok b3 y y0 ?_
        rw [nodeScores_length b2, readSlice_length b1, hnl]
        omega
      · obtain ⟨s, actives, order', act, r, a1, a2, a3, a4, a5, a6⟩ := select_mode4 hsp hm p2
        rw [hord] at a3
        cases a3
        obtain ⟨b1, b2, b3⟩ := mode4_range a4
        obtain ⟨W, e, r', c1, c2, -⟩ := mode4_run (l := x.l) (by rw [hobl]; exact hl0) b1 (order := order) (by rw [hnl]; exact p6.trans hk.order) b2 b3 v.rng
        rw [a4] at c1
        simp only [Except.ok.injEq, Prod.mk.injEq] at c1
        rw [p3, a5, Option.getD_some, c1.1.1]
        refine List.mem_append_left _ (List.mem_map.mpr ⟨y.toNat, List.mem_filter.mpr ⟨List.mem_range.mpr (by omega), c2 _ ?_⟩, by omega⟩)
        unfold Layer.wanted
        simp [hxs, Int.toNat_of_nonneg y0, hy]
      · obtain ⟨s, actives, a1, a2, a3⟩ := select_mode1 hsp hm p2
        rw [p3, a3, Option.getD_some, (mode1_spec _ _ _ _ _).2]
        rw [if_pos (by simp [hxs, hy]), hobl]
        omega

end Goslide.Network
