import Verif.Proofs.NodeVec
/-
Groups of nodes that share nothing: an operation on one of them leaves the others alone.
-/
set_option linter.unusedSectionVars false
namespace Goslide.Node
open Spec.Node Configuration
variable {F : Type} [GoFloat F]

/-- A node that `c` owns is ready to be changed by `c`. -/
theorem cow_refl {h : Heap F} {n : Ptr} {v : View F} {nd b qs} (hp : Parts h n v nd b qs) {c : Int} (hc : nd.cowId = c) :
    Cow h h n n c := by
  refine ⟨rfl, rfl, fun _ _ h => h, fun _ h => h, fun _ _ h => h, id, ?_, ?_, fun _ => ⟨rfl, rfl⟩, id,
    fun _ _ _ hne hs => ⟨fun _ _ _ _ h => ⟨h, fun _ _ => rfl⟩, hs, hne⟩, ?_⟩
  · intro nd' hn; rw [hp.node] at hn; cases hn; exact hc
  · intro p' v' hv' hf hor
    have hne : p' ≠ n := by
      rintro rfl
      exact (((foreign_of hp c).mp hf).1) hc
    refine ⟨hf, hne, ?_⟩
    rcases hor with rfl | hd
    · exact absurd rfl hne
    · intro n1 n2 h1 h2
      exact hd.2 n p' n1 n2 (Ne.symm hne) h1 h2
  · intro nd0 nd' b0 b' e1 e2 e3 e4
    rw [e1] at e3; cases e3
    rw [e2] at e4; cases e4; rfl

theorem Op.trans {h h1 h2 : Heap F} {p n m : Ptr} {c : Int} {v1 v2 : View F} (a : Op h h1 p n c v1)
    (b : Op h1 h2 n m c v2) : Op h h2 p m c v2 := by
  refine ⟨b.result, ?_, fun hd => b.disj (a.disj hd), b.nodeArrs.trans a.nodeArrs, fun hi => b.inner (a.inner hi), ?_, ?_⟩
  · intro p' v' hv'
    obtain ⟨v3, h3⟩ := a.wf p' v' hv'
    exact b.wf p' v3 h3
  · intro p' v' hv' hne hs
    obtain ⟨k1, s1, n1⟩ := a.sep p' v' hv' hne hs
    obtain ⟨nd', b', qs', hp'⟩ := hv'.parts
    obtain ⟨k2, s2, n2⟩ := b.sep p' v' (k1 _ _ _ _ hp').1.handle n1 s1
    exact ⟨k1.trans k2, s2, n2⟩
  · intro ho
    obtain ⟨rfl, o1⟩ := a.same ho
    exact b.same o1

theorem Cow.op {h h1 : Heap F} {p n : Ptr} {c : Int} {v : View F} (hv : Handle h p v) (hc : Cow h h1 p n c) :
    Op h h1 p n c v :=
  ⟨hc.new v hv, fun p' v' hv' => ⟨v', hc.keep p' v' hv'⟩, hc.disj, hc.nodeArrs, hc.inner, hc.sep,
    fun ho => by obtain ⟨rfl, rfl⟩ := hc.same ho; exact ⟨rfl, ho⟩⟩

theorem Keep.handle {h h1 : Heap F} {p : Ptr} {v : View F} (hk : Keep h h1 p) (hv : Handle h p v) : Handle h1 p v := by
  obtain ⟨nd, b, qs, hp⟩ := hv.parts
  exact (hk _ _ _ _ hp).1.handle

theorem Keep.inner {h h1 : Heap F} {p : Ptr} {v : View F} (hk : Keep h h1 p) (hv : Handle h p v) (hi : Inner h p) :
    Inner h1 p := by
  obtain ⟨nd, b, qs, hp⟩ := hv.parts
  have hp1 := (hk _ _ _ _ hp).1
  intro n' b' hn hb
  rw [hp1.node] at hn; cases hn
  rw [hp1.base] at hb; cases hb
  exact hi nd b hp.node hp.base

theorem Keep.owned {h h1 : Heap F} {p : Ptr} {v : View F} (hk : Keep h h1 p) (hv : Handle h p v) (c : Int) :
    Owned h1 p c ↔ Owned h p c := by
  obtain ⟨nd, b, qs, hp⟩ := hv.parts
  obtain ⟨hp1, ht⟩ := hk _ _ _ _ hp
  rw [owned_of hp, owned_of hp1]
  refine and_congr_right (fun _ => and_congr_right (fun _ => ?_))
  constructor
  · intro h q hq t hqt; exact h q hq t (by rw [ht q hq]; exact hqt)
  · intro h q hq t hqt; exact h q hq t (by rw [← ht q hq]; exact hqt)

theorem Keep.foreign {h h1 : Heap F} {p : Ptr} {v : View F} (hk : Keep h h1 p) (hv : Handle h p v) (c : Int) :
    Foreign h1 p c ↔ Foreign h p c := by
  obtain ⟨nd, b, qs, hp⟩ := hv.parts
  obtain ⟨hp1, ht⟩ := hk _ _ _ _ hp
  rw [foreign_of hp, foreign_of hp1]
  refine and_congr_right (fun _ => and_congr_right (fun _ => ?_))
  constructor
  · intro h q hq t hqt; exact h q hq t (by rw [ht q hq]; exact hqt)
  · intro h q hq t hqt; exact h q hq t (by rw [← ht q hq]; exact hqt)

theorem Keep.sep {h h1 : Heap F} {p p' : Ptr} {v v' : View F} (hk : Keep h h1 p) (hk' : Keep h h1 p')
    (hv : Handle h p v) (hv' : Handle h p' v') (hs : Sep h p p') : Sep h1 p p' := by
  obtain ⟨nd, b, qs, hp⟩ := hv.parts
  obtain ⟨nd', b', qs', hp'⟩ := hv'.parts
  rw [sep_of (hk _ _ _ _ hp).1 (hk' _ _ _ _ hp').1]
  exact (sep_of hp hp').mp hs

theorem sep_symm {h : Heap F} {p p' : Ptr} {v v' : View F} (hv : Handle h p v) (hv' : Handle h p' v')
    (hs : Sep h p p') : Sep h p' p := by
  obtain ⟨nd, b, qs, hp⟩ := hv.parts
  obtain ⟨nd', b', qs', hp'⟩ := hv'.parts
  obtain ⟨s1, s2, s3, s4⟩ := (sep_of hp hp').mp hs
  rw [sep_of hp' hp]
  exact ⟨s1.symm, Ne.symm s2, fun s hs s' hs' => (s3 s' hs' s hs).symm, fun q hq hq' => s4 q hq' hq⟩

theorem sep_ne {h : Heap F} {p p' : Ptr} {v : View F} (hv : Handle h p v) (hs : Sep h p p') : p' ≠ p := by
  rintro rfl
  obtain ⟨nd, b, qs, hp⟩ := hv.parts
  exact ((sep_of hp hp).mp hs).2.1 rfl

theorem _root_.Goslide.Spec.Node.Group.get {h : Heap F} {L : List Ptr} {vs : List (View F)} (g : Group h L vs) {k : Nat} {v : View F}
    (hv : vs[k]? = some v) : ∃ p, L[k]? = some p ∧ Handle h p v := by
  have hk : k < L.length := by rw [g.len]; exact (List.getElem?_eq_some_iff.mp hv).1
  exact ⟨L[k], List.getElem?_eq_getElem hk, g.handle k _ v (List.getElem?_eq_getElem hk) hv⟩

theorem _root_.Goslide.Spec.Node.Group.getv {h : Heap F} {L : List Ptr} {vs : List (View F)} (g : Group h L vs) {k : Nat} {p : Ptr}
    (hp : L[k]? = some p) : ∃ v, vs[k]? = some v ∧ Handle h p v := by
  have hk : k < vs.length := by rw [← g.len]; exact (List.getElem?_eq_some_iff.mp hp).1
  exact ⟨vs[k], List.getElem?_eq_getElem hk, g.handle k _ _ hp (List.getElem?_eq_getElem hk)⟩

/-- An operation on one node of a group. -/
theorem _root_.Goslide.Spec.Node.Group.op {h h' : Heap F} {L : List Ptr} {vs : List (View F)} (g : Group h L vs) {k : Nat} {p n : Ptr}
    {c : Int} {v v' : View F} (hp : L[k]? = some p) (hv : vs[k]? = some v) (ho : Op h h' p n c v') :
    Group h' (L.set k n) (vs.set k v') ∧ ∀ (j : Nat) (p' : Ptr), j ≠ k → L[j]? = some p' → Keep h h' p' := by
  have hkL : k < L.length := (List.getElem?_eq_some_iff.mp hp).1
  have hkv : k < vs.length := (List.getElem?_eq_some_iff.mp hv).1
  have hhv := g.handle k p v hp hv
  have key : ∀ (j : Nat) (p' : Ptr), j ≠ k → L[j]? = some p' → Keep h h' p' ∧ Sep h' n p' := by
    intro j p' hj hp'
    obtain ⟨v2, _, h2⟩ := g.getv hp'
    have hs := g.sep k j p p' (Ne.symm hj) hp hp'
    obtain ⟨a, b, _⟩ := ho.sep p' v2 h2 (sep_ne hhv hs) hs
    exact ⟨a, b⟩
  have get : ∀ (j : Nat) (p' : Ptr), (L.set k n)[j]? = some p' → (j = k ∧ p' = n) ∨ (j ≠ k ∧ L[j]? = some p') := by
    intro j p' hj
    by_cases hjk : k = j
    · subst hjk
      rw [List.getElem?_set_self hkL] at hj
      cases hj; exact .inl ⟨rfl, rfl⟩
    · rw [List.getElem?_set_ne hjk] at hj
      exact .inr ⟨Ne.symm hjk, hj⟩
  refine ⟨⟨by simp [g.len], ?_, ?_, ?_⟩, fun j p' hj hp' => (key j p' hj hp').1⟩
  · intro j p' v2 hj hv2
    rcases get j p' hj with ⟨rfl, rfl⟩ | ⟨hjk, hj⟩
    · rw [List.getElem?_set_self hkv] at hv2
      cases hv2; exact ho.result
    · rw [List.getElem?_set_ne (Ne.symm hjk)] at hv2
      exact (key j p' hjk hj).1.handle (g.handle j p' v2 hj hv2)
  · intro p' hp'
    obtain ⟨j, hj⟩ := List.mem_iff_getElem?.mp hp'
    rcases get j p' hj with ⟨rfl, rfl⟩ | ⟨hjk, hj⟩
    · exact ho.inner (g.inner p (List.mem_of_getElem? hp))
    · obtain ⟨v2, _, h2⟩ := g.getv hj
      exact (key j p' hjk hj).1.inner h2 (g.inner p' (List.mem_of_getElem? hj))
  · intro i j p1 p2 hij h1 h2
    rcases get i p1 h1 with ⟨rfl, rfl⟩ | ⟨hi, e1⟩ <;> rcases get j p2 h2 with ⟨rfl, rfl⟩ | ⟨hj, e2⟩
    · exact absurd rfl hij
    · exact (key j p2 hj e2).2
    · obtain ⟨v1, _, g1⟩ := g.getv e1
      exact sep_symm ho.result ((key i p1 hi e1).1.handle g1) (key i p1 hi e1).2
    · obtain ⟨v1, _, g1⟩ := g.getv e1
      obtain ⟨v2, _, g2⟩ := g.getv e2
      exact (key i p1 hi e1).1.sep (key j p2 hj e2).1 g1 g2 (g.sep i j p1 p2 hij e1 e2)

theorem _root_.Goslide.Spec.Node.Group.op_owned {h h' : Heap F} {L : List Ptr} {vs : List (View F)} (g : Group h L vs) {k : Nat} {p n : Ptr}
    {c : Int} {v v' : View F} (hp : L[k]? = some p) (hv : vs[k]? = some v) (ho : Op h h' p n c v')
    (ha : AllOwned h L c) : n = p ∧ L.set k n = L ∧ AllOwned h' L c := by
  obtain ⟨rfl, o⟩ := ho.same (ha p (List.mem_of_getElem? hp))
  refine ⟨rfl, ?_, ?_⟩
  · obtain ⟨hl, rfl⟩ := List.getElem?_eq_some_iff.mp hp
    exact List.set_getElem_self hl
  · intro p' hp'
    obtain ⟨j, hj⟩ := List.mem_iff_getElem?.mp hp'
    by_cases hjk : j = k
    · subst hjk; rw [hp] at hj; cases hj; exact o
    · obtain ⟨v2, _, g2⟩ := g.getv hj
      exact (((g.op hp hv ho).2 j p' hjk hj).owned g2 c).mpr (ha p' hp')

end Goslide.Node
