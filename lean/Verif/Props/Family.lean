import Verif.Proofs.Hashers
import Verif.Proofs.NetworkLife
import Verif.Props.Layer
/-
The layers have hash functions of the configured family, with seeds of their own: C95.
-/
set_option linter.unusedSectionVars false
namespace Goslide.Props
open Goslide Node Lsh Configuration Spec.Node Spec.Network Layer Network Xcrepo Spec
variable {F : Type} [GoFloat F]

theorem newHasher_family {cfg : Config F} {kl dim : Nat} {w w' : World F} {h : Hasher} (e : newHasher cfg kl dim w = .ok (h, w')) :
    Family cfg.HashFunction kl dim h := by
  unfold newHasher hashFunctionOf at e
  by_cases h1 : cfg.HashFunction = 1
  · rw [if_pos h1] at e; cases e; exact ⟨h1, rfl, rfl⟩
  rw [if_neg h1] at e
  by_cases h2 : cfg.HashFunction = 2
  · rw [if_pos h2] at e; cases e; exact ⟨h2, rfl, rfl⟩
  rw [if_neg h2] at e
  by_cases h3 : cfg.HashFunction = 3
  · rw [if_pos h3] at e; cases e; exact ⟨h3, rfl, rfl, by unfold Minhash.getMap; simp⟩
  rw [if_neg h3] at e
  by_cases h4 : cfg.HashFunction = 4
  · rw [if_pos h4] at e
    dsimp only at e
    unfold draw Srp.new at e
    split at e
    · rename_i a r he
      cases e
      dsimp only at he
      split at he
      · cases he
      · cases hr : Srp.rowsLoop (GoFloat.ceilInt (GoFloat.div (GoFloat.ofInt (dim : Int) : F) (GoFloat.ofInt (srpRatio : Int)))).toNat kl (List.range dim) w.rng with
        | error _ => rw [hr] at he; cases he
        | ok v => rw [hr] at he; cases he; exact ⟨h4, rfl, rfl⟩
    · cases e
  rw [if_neg h4] at e
  cases e

theorem layerNo_of {w : World F} {p : Ptr} {n : Network F} {Q : List (State F)} (N : NetAt w p n Q) (j : Nat) :
    layerNo w p j = (Q[j]?).map State.obj := by
  unfold layerNo
  rw [N.obj]
  show (readSlice w.layerArrs n.hiddenLayers).bind _ = _
  rw [N.layers.ptrs]
  show ((Q.map State.ptr)[j]?).bind _ = _
  rw [List.getElem?_map]
  cases hg : Q[j]? with
  | none => rfl
  | some g => exact (N.layers.stored g (List.mem_of_getElem? hg)).obj

/-- C95. Whatever training and prediction a network has been through, every one of its layers has a hash function of the family that the configuration names,
for as many codes as its hash tables need and for vectors with as many components as the layer has inputs. -/
theorem C95_family [FloatOrder F] {cfg : Config F} (hl : cfg.LoadWeight = false) {a : NetArgs F} (ha : a.Typed) {c : Int} {w : World F} {p : Ptr} (life : Life cfg c a w p) (j : Nat) :
    (∀ x, layerNo w p j = some x → ∃ k l dim, a.k[j]? = some k ∧ a.l[j]? = some l ∧ inputsOf a j = some dim ∧ x.k = k ∧ x.l = l ∧
      Family cfg.HashFunction (k * l).toNat dim.toNat x.hasher) ∧
    ((j : Int) < a.layers ↔ ∃ x, layerNo w p j = some x) := by
  obtain ⟨n, Q, al⟩ := life.alive hl ha
  rw [layerNo_of al.trainable.net]
  refine ⟨fun x hx => ?_, ?_⟩
  · obtain ⟨g, hg, rfl⟩ := Option.map_eq_some_iff.mp hx
    obtain ⟨size, prev, ty, k, l, rp, -, -, hk, hl', -, kept, p0, p1⟩ := al.kept j g hg
    obtain ⟨v, v', hv⟩ := kept.hasher
    refine ⟨k, l, prev, hk, hl', ?_, kept.oK, kept.oL, newHasher_family hv⟩
    cases j with
    | zero => rw [p0 rfl]; rfl
    | succ i => exact p1 i rfl
  · have hc := al.trainable.net.count
    rw [al.count] at hc
    constructor
    · intro h
      exact ⟨_, by rw [List.getElem?_eq_getElem (by omega : j < Q.length), Option.map_some]⟩
    · rintro ⟨x, hx⟩
      obtain ⟨g, hg, -⟩ := Option.map_eq_some_iff.mp hx
      have := (List.getElem?_eq_some_iff.mp hg).1
      omega

/-- C95. With any other number for the hash function no network with layers comes about. -/
theorem C95_other {cfg : Config F} {c : Int} {a : NetArgs F} {w w' : World F} {p : Ptr}
    (h : Network.new cfg c a.layers a.sizes a.types a.batch a.rate a.dim a.k a.l a.rangePow a.sparsity w = .ok (p, w')) :
    a.layers = 0 ∨ cfg.HashFunction = 1 ∨ cfg.HashFunction = 2 ∨ cfg.HashFunction = 3 ∨ cfg.HashFunction = 4 := by
  unfold Network.new at h
  obtain ⟨_, v1, h1, e⟩ := M.bind_eq_ok h
  obtain ⟨ps, v2, h2, e⟩ := M.bind_eq_ok e
  by_cases h0 : a.layers < 0
  · unfold checkLen at h1
    rw [if_pos h0] at h1
    cases h1
  by_cases hz : a.layers = 0
  · exact Or.inl hz
  obtain ⟨n, hn⟩ : ∃ n, a.layers.toNat = n + 1 := ⟨a.layers.toNat - 1, by omega⟩
  rw [hn] at h2
  unfold newLayers at h2
  obtain ⟨_, u1, _, h2⟩ := M.bind_eq_ok h2
  obtain ⟨_, u2, _, h2⟩ := M.bind_eq_ok h2
  obtain ⟨_, u3, _, h2⟩ := M.bind_eq_ok h2
  obtain ⟨_, u4, _, h2⟩ := M.bind_eq_ok h2
  obtain ⟨_, u5, _, h2⟩ := M.bind_eq_ok h2
  obtain ⟨_, u6, _, h2⟩ := M.bind_eq_ok h2
  obtain ⟨_, u7, h3, -⟩ := M.bind_eq_ok h2
  obtain ⟨kl, dim, v, g, v', hg⟩ := new_hasher h3
  have hfam := newHasher_family hg
  cases g with
  | wta _ => exact Or.inr (Or.inl hfam.1)
  | dwta _ => exact Or.inr (Or.inr (Or.inl hfam.1))
  | minhash _ _ => exact Or.inr (Or.inr (Or.inr (Or.inl hfam.1)))
  | srp _ => exact Or.inr (Or.inr (Or.inr (Or.inr hfam.1)))

/-- C95. With minwise hashing the layers of a new network use different seeds: layer `j` the `j`-th one. -/
theorem C95_seeds {cfg : Config F} (hf : cfg.HashFunction = 3) {c : Int} {a : NetArgs F} {w w' : World F} {p : Ptr}
    (h : Network.new cfg c a.layers a.sizes a.types a.batch a.rate a.dim a.k a.l a.rangePow a.sparsity w = .ok (p, w')) (j : Nat) (hj : (j : Int) < a.layers) :
    (layerNo w' p j).bind (fun x => seedOf x.hasher) = some (w.hashes j) := by
  unfold Network.new at h
  obtain ⟨_, v1, h1, e⟩ := M.bind_eq_ok h
  obtain ⟨ps, v2, h2, e⟩ := M.bind_eq_ok e
  obtain ⟨s, v3, h3, e⟩ := M.bind_eq_ok e
  have a1 := still_checkLen _ _ _ _ h1
  obtain ⟨len, -, all⟩ := newLayers_seeds hf _ _ _ _ _ _ h2
  cases h3
  cases e
  have hlt : j < ps.length := by omega
  obtain ⟨x, hx, hs⟩ := all j _ (List.getElem?_eq_getElem hlt)
  unfold layerNo
  show ((v2.networks ++ _)[v2.networks.length]?.bind _).bind _ = _
  rw [List.getElem?_append_right (Nat.le_refl _), Nat.sub_self, List.getElem?_cons_zero, Option.bind_some]
  have hr : readSlice (v2.layerArrs ++ [ps]) { arr := v2.layerArrs.length, off := 0, len := ps.length } = some ps := by
    unfold readSlice
    rw [if_neg (by show ¬ ps.length = 0; omega)]
    simp
  rw [hr]
  show ((ps[j]?).bind (fun q => v2.layers[q]?)).bind _ = _
  rw [List.getElem?_eq_getElem hlt, Option.bind_some, hx, Option.bind_some, hs, a1.1]

namespace FamilyEx

/-- A network of two layers, with `n` nodes and one node, for `n` features, whose layers use the hash functions of family `f`. The `i`-th seed maps everything to `i`. -/
def build (f n : Int) : Go (Ptr × World Rat) :=
  Network.new { LayerEx.cfg 1 with HashFunction := f } 0 2 [n, 1] [0, 1] 1 1 n [2, 1] [1, 3] [6, 6] [1, 1] { LayerEx.w0 with hashes := fun i _ => BitVec.ofNat 64 i }

/-- The family of a hash function, the number of codes and of components, and what the seed maps 5 to. -/
def describe : Hasher → Nat × Nat × Nat × Option (BitVec 64)
  | .wta h => (1, h.numHashes, h.rangePow, none)
  | .dwta h => (2, h.numHashes, h.rangePow, none)
  | .minhash h _ => (3, h.numHashes, h.rangePow, some (h.hash 5))
  | .srp h => (4, h.numHashes, h.dim, none)

/-- The two hash functions of the network. -/
def families (f n : Int) : Option (List (Nat × Nat × Nat × Option (BitVec 64))) :=
  match build f n with
  | .ok (p, w) => [0, 1].mapM (fun j => (layerNo w p j).map (fun x => describe x.hasher))
  | .error _ => none

end FamilyEx

-- two and three codes; there is no family 5 (minwise hashing needs 30 inputs and has a seed per layer)
example : FamilyEx.families 4 3 = some [(4, 2, 3, none), (4, 3, 3, none)] ∧ FamilyEx.families 3 30 = some [(3, 2, 30, some 0), (3, 3, 30, some 1)] ∧ FamilyEx.families 5 3 = none := by
  refine ⟨by decide +kernel, by decide +kernel, by decide +kernel⟩

example : FamilyEx.families 1 3 = some [(1, 2, 3, none), (1, 3, 3, none)] ∧ FamilyEx.families 2 3 = some [(2, 2, 3, none), (2, 3, 3, none)] := by
  refine ⟨by decide +kernel, by decide +kernel⟩

end Goslide.Props
