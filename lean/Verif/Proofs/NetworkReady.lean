import Verif.Proofs.NetworkTrain
/-
When the backward pass cannot panic: distinct active nodes whose inputs fit.
-/
set_option linter.unusedSectionVars false
namespace Goslide.Network
open Goslide Node Lsh Configuration Spec.Node Spec.Network Layer Xcrepo
variable {F : Type} [GoFloat F]

/-- Input `i` has activated the node. -/
def Act (i : Nat) (v : View F) : Prop := ∃ s, v.train[i]? = some s ∧ s.active = true

/-- The inputs have a weight and, with Adam, a gradient cell. -/
def Accepts (adam : Bool) (inputs : List (Pair F)) (d : Dims) : Prop :=
  ∀ x ∈ inputs, 0 ≤ x.Index ∧ x.Index < d.weights ∧ (adam = true → x.Index < d.t)

theorem bump_active (x : F) (s : Slot F) : (bump x s).active = s.active := by
  unfold bump; split <;> rfl

/-- The nodes `us'` have the shapes of `us`, and active ones are still active. -/
def StillActive (i : Nat) (us us' : List (View F)) : Prop :=
  us'.map View.dims = us.map View.dims ∧ ∀ (k : Nat) (v : View F), us[k]? = some v → Act i v → ∃ v', us'[k]? = some v' ∧ Act i v'

theorem StillActive.refl (i : Nat) (us : List (View F)) : StillActive i us us := ⟨rfl, fun _ v h a => ⟨v, h, a⟩⟩

theorem StillActive.trans {i : Nat} {us us1 us2 : List (View F)} (a : StillActive i us us1) (b : StillActive i us1 us2) : StillActive i us us2 := by
  refine ⟨b.1.trans a.1, fun k v h hv => ?_⟩
  obtain ⟨v1, h1, a1⟩ := a.2 k v h hv
  exact b.2 k v1 h1 a1

theorem backStep_still (adam : Bool) (lr d : F) (i : Nat) (st : Params F × List (View F)) (x : Pair F) :
    StillActive i st.2 (backStep adam lr d i st x).2 := by
  unfold backStep
  dsimp only
  refine ⟨modify_map _ _ _ _ (fun v => setSlot_dims v i _), ?_⟩
  rintro k v h ⟨s, hs, ha⟩
  rw [List.getElem?_modify, h]
  split
  · refine ⟨_, rfl, bump (GoFloat.mul d ((st.1.weights[x.Index.toNat]?).getD GoFloat.zero)) s, ?_, ?_⟩
    · unfold View.setSlot
      simp [hs]
    · rw [bump_active]; exact ha
  · exact ⟨v, rfl, s, hs, ha⟩

theorem backFold_still (adam : Bool) (lr d : F) (i : Nat) : ∀ (l : List (Pair F)) (st : Params F × List (View F)),
    StillActive i st.2 (l.foldl (backStep adam lr d i) st).2
  | [], _ => .refl i _
  | x :: l, st => (backStep_still adam lr d i st x).trans (backFold_still adam lr d i l _)

theorem backAt_still (adam : Bool) (lr : F) (i : Nat) (soft : Option (F × List Int)) (first : Bool) (inputs : List (Pair F))
    (st : List (View F) × List (View F)) (pair : Pair F) : StillActive i st.2 (backAt adam lr i soft first inputs st pair).2 := by
  unfold backAt
  split
  · exact .refl i _
  · unfold backView
    split
    · exact .refl i _
    · exact backFold_still _ _ _ _ _ _

theorem backLayerV_still (adam : Bool) (lr : F) (i : Nat) (soft : Option (F × List Int)) (first : Bool) (inputs : List (Pair F)) :
    ∀ (pairs : List (Pair F)) (st : List (View F) × List (View F)), StillActive i st.2 (backLayerV adam lr i soft first inputs pairs st).2
  | [], _ => .refl i _
  | x :: l, st => (backAt_still adam lr i soft first inputs st x).trans (backLayerV_still adam lr i soft first inputs l _)

/-- The listed nodes are active and accept the inputs. -/
def Waiting (adam : Bool) (i : Nat) (inputs : List (Pair F)) (vs : List (View F)) (pair : Pair F) : Prop :=
  0 ≤ pair.Index ∧ ∃ v, vs[pair.Index.toNat]? = some v ∧ Act i v ∧ Accepts adam inputs v.dims

theorem allReady_of {adam : Bool} {lr : F} {i : Nat} {soft : Option (F × List Int)} {first : Bool} {inputs : List (Pair F)} :
    ∀ (pairs : List (Pair F)) (st : List (View F) × List (View F)) (_ : ∀ pr ∈ pairs, Waiting adam i inputs st.1 pr)
      (_ : first = false → ∀ x ∈ inputs, ∃ v, st.2[x.Index.toNat]? = some v ∧ Act i v) (_ : (pairs.map Pair.Index).Nodup),
    AllReady adam lr i soft first inputs pairs st
  | [], _, _, _, _ => trivial
  | pair :: rest, st, hA, hB, hC => by
    obtain ⟨h0, v, hv, ⟨s, hs, ha⟩, hacc⟩ := hA pair (by simp)
    rw [List.map_cons, List.nodup_cons] at hC
    refine ⟨⟨h0, v, s, hv, hs, ha, ?_⟩, allReady_of rest _ ?_ ?_ hC.2⟩
    · cases first with
      | true => rw [if_pos rfl]; exact hacc
      | false =>
        rw [if_neg (by simp)]
        intro x hx
        obtain ⟨a, b, c⟩ := hacc x hx
        obtain ⟨v1, h1, s1, h2, h3⟩ := hB rfl x hx
        exact ⟨a, b, c, v1, s1, h1, h2, h3⟩
    · intro pr hpr
      obtain ⟨h0', v', hv', hw⟩ := hA pr (by simp [hpr])
      have hne : pr.Index.toNat ≠ pair.Index.toNat := by
        intro e
        have : pr.Index = pair.Index := by omega
        exact hC.1 (this ▸ List.mem_map_of_mem hpr)
      exact ⟨h0', v', by rw [backAt_other hne]; exact hv', hw⟩
    · intro hf x hx
      obtain ⟨v1, h1, a1⟩ := hB hf x hx
      exact (backAt_still adam lr i soft first inputs st pair).2 _ v1 h1 a1

/-- The active nodes of layer `m` are distinct, active and accept their inputs. -/
def LayerReady (adam : Bool) (i : Nat) (acts : List (List (Pair F))) (V : List (List (View F))) (m : Nat) : Prop :=
  ∃ vs cur next, V[m]? = some vs ∧ acts[m]? = some cur ∧ acts[m + 1]? = some next ∧ (next.map Pair.Index).Nodup ∧
    ∀ pr ∈ next, Waiting adam i cur vs pr

theorem Waiting.still {adam : Bool} {i : Nat} {inputs : List (Pair F)} {vs vs' : List (View F)} {pr : Pair F}
    (h : Waiting adam i inputs vs pr) (s : StillActive i vs vs') : Waiting adam i inputs vs' pr := by
  obtain ⟨h0, v, hv, ha, hacc⟩ := h
  obtain ⟨v', hv', ha'⟩ := s.2 _ v hv ha
  refine ⟨h0, v', hv', ha', ?_⟩
  have := congrArg (fun (l : List Dims) => l[pr.Index.toNat]?) s.1
  simp only [List.getElem?_map, hv, hv', Option.map_some] at this
  rw [Option.some.inj this]
  exact hacc

theorem backwardReady_of {adam : Bool} {lr : F} {i : Nat} {norm : F} {labels : List Int} {acts : List (List (Pair F))} :
    ∀ (n : Nat) (V : List (List (View F))) (_ : ∀ m, m < n → LayerReady adam i acts V m),
    BackwardReady adam lr i norm labels acts n V
  | 0, _, _ => trivial
  | n + 1, V, h => by
    obtain ⟨vs, cur, next, hV, hc, hn, hnd, hw⟩ := h n (by omega)
    have hlt := (List.getElem?_eq_some_iff.mp hV).1
    have hprev : ∀ m, m + 1 = n → ∀ x ∈ cur, ∃ us v, V[m]? = some us ∧ us[x.Index.toNat]? = some v ∧ Act i v := by
      intro m hm x hx
      obtain ⟨us, cur', next', hV', -, hn', -, hw'⟩ := h m (by omega)
      rw [hm, hc] at hn'
      cases hn'
      obtain ⟨-, v, hv, ha, -⟩ := hw' x hx
      exact ⟨us, v, hV', hv, ha⟩
    refine ⟨(List.getElem?_eq_some_iff.mp hn).1, hlt, ?_, backwardReady_of n _ ?_⟩
    · rw [hc, hn]
      refine allReady_of _ _ ?_ ?_ hnd
      · unfold getPair; rw [hV]; exact hw
      · intro hf x hx
        have hn0 : n ≠ 0 := by simpa using hf
        obtain ⟨us, v, hV', hv, ha⟩ := hprev (n - 1) (by omega) x hx
        unfold getPair
        dsimp only
        rw [if_neg hn0, hV']
        exact ⟨v, hv, ha⟩
    · intro m hm
      obtain ⟨us, cur', next', hV', hc', hn', hnd', hw'⟩ := h m (by omega)
      unfold setPair
      rw [if_neg (by omega)]
      by_cases he : m = n - 1
      · have hs : StillActive i us (backwardAt adam lr i norm labels acts n V).2 := by
          have := backLayerV_still adam lr i (softOf V.length n norm labels) (n == 0) ((acts[n]?).getD []) ((acts[n + 1]?).getD []) (getPair V n)
          unfold backwardAt
          have e : (getPair V n).2 = us := by
            unfold getPair
            dsimp only
            rw [if_neg (by omega), ← he, hV']
            rfl
          rw [e] at this
          exact this
        refine ⟨_, cur', next', ?_, hc', hn', hnd', fun pr hpr => (hw' pr hpr).still hs⟩
        rw [he, List.getElem?_set_self]
        rw [List.length_set]; omega
      · refine ⟨us, cur', next', ?_, hc', hn', hnd', hw'⟩
        rw [List.getElem?_set_ne (by omega), List.getElem?_set_ne (by omega)]
        exact hV'

end Goslide.Network
