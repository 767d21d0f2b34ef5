import Verif.Proofs.NetworkRng
/-
Every computation uses up a prefix of the random draws.
-/
set_option linter.unusedSectionVars false
namespace Goslide

/-- `r'` is what remains of `r` after some draws. -/
def Rng.Later (r r' : Rng) : Prop := ∃ k, r' = fun i => r (i + k)

theorem Rng.Later.refl (r : Rng) : r.Later r := ⟨0, rfl⟩

theorem Rng.Later.tail (r : Rng) : r.Later r.tail := ⟨1, rfl⟩

theorem Rng.Later.drop (r : Rng) (k : Nat) : r.Later (fun i => r (i + k)) := ⟨k, rfl⟩

theorem Rng.Later.trans {a b c : Rng} : a.Later b → b.Later c → a.Later c := by
  rintro ⟨k, rfl⟩ ⟨m, rfl⟩
  exact ⟨m + k, by funext i; show a (i + m + k) = _; rw [Nat.add_assoc]⟩

theorem shuffleFrom_later {α : Type} : ∀ (i : Nat) (l : List α) (r : Rng), r.Later (shuffleFrom l i r).2
  | 0, _, r => .refl r
  | i + 1, _, r => (Rng.Later.tail r).trans (shuffleFrom_later i _ r.tail)

theorem shuffle_later {α : Type} (l : List α) (r : Rng) : r.Later (shuffle l r).2 := shuffleFrom_later _ _ _

theorem randIntn_later {r r' : Rng} {n v : Nat} (h : randIntn r n = .ok (v, r')) : r.Later r' := by
  unfold randIntn at h
  split at h
  · cases h
  · cases h; exact .tail r

theorem Wta.permLoop_later : ∀ (p : Nat) (l : List Nat) (r : Rng), r.Later (Wta.permLoop p l r).2
  | 0, _, r => .refl r
  | p + 1, l, r => (shuffle_later l r).trans (Wta.permLoop_later p _ _)

theorem Wta.new_later (n d : Nat) (r : Rng) : r.Later (Wta.new n d r).2 := Wta.permLoop_later _ _ _

theorem Dwta.fillLoop_later (dim : Nat) : ∀ (n p : Nat) (l : List Nat) (t : List Nat × List Nat) (r : Rng), r.Later (Dwta.fillLoop dim n p l t r).2
  | 0, _, _, _, r => .refl r
  | n + 1, p, l, _, r => (shuffle_later l r).trans (Dwta.fillLoop_later dim n (p + 1) _ _ _)

theorem Dwta.new_later (n d : Nat) (r : Rng) : r.Later (Dwta.new n d r).2 :=
  (Dwta.fillLoop_later d _ 0 _ _ r).trans (.drop _ 3)

theorem Srp.rowsLoop_later (s : Nat) : ∀ (n : Nat) (a : List Nat) (r : Rng) {o : List (List (Nat × Bool)) × Rng}, Srp.rowsLoop s n a r = .ok o → r.Later o.2
  | 0, _, r, o, h => by cases h; exact .refl r
  | n + 1, a, r, o, h => by
    simp only [Srp.rowsLoop] at h
    rw [bind_ok_iff] at h
    obtain ⟨x, -, h⟩ := h
    rw [bind_ok_iff] at h
    obtain ⟨y, h2, h⟩ := h
    have l2 := Srp.rowsLoop_later s n _ _ h2
    cases h
    exact ((shuffle_later a r).trans (.drop _ s)).trans l2

theorem Srp.new_later (F : Type) [GoFloat F] {d n ratio : Nat} {r : Rng} {o : Srp.SparseRandomProjection × Rng} (h : Srp.new F d n ratio r = .ok o) : r.Later o.2 := by
  unfold Srp.new at h
  dsimp only at h
  split at h
  · cases h
  · rw [bind_ok_iff] at h
    obtain ⟨y, h2, h⟩ := h
    cases h
    exact Srp.rowsLoop_later _ _ _ _ h2

theorem Lsh.new_later {k l rp : Nat} {r : Rng} {o : Lsh.LSH × Rng} (h : Lsh.new k l rp r = .ok o) : r.Later o.2 := by
  have key : ∀ x : Go Nat, ((do
      let n ← x
      let (rand1, r') := Lsh.drawMultipliers (k * l) r
      return ({ buckets := List.replicate l (List.replicate n Fifo.new), k, l, rangePow := rp, rand1 }, r') : Go (Lsh.LSH × Rng)) = .ok o) → r.Later o.2 := by
    intro x h
    rw [bind_ok_iff] at h
    obtain ⟨y, -, h⟩ := h
    cases h
    exact .drop r _
  unfold Lsh.new at h
  dsimp only at h
  split at h
  · exact key (.ok 0) h
  · exact key (Lsh.numBuckets rp) h

namespace Layer

theorem mode2Loop_later (n : Nat) : ∀ (fuel tmp : Nat) (st : List Int × List Bool) (r : Rng) {o : List Int × Rng},
    mode2Loop n fuel tmp st r = .ok o → r.Later o.2 := by
  intro fuel
  induction fuel with
  | zero =>
    intro tmp st r o h
    obtain ⟨act, bs⟩ := st
    rw [mode2Loop] at h
    split at h
    · cases h
    · cases h; exact .refl r
  | succ fuel ih =>
    intro tmp st r o h
    obtain ⟨act, bs⟩ := st
    rw [mode2Loop] at h
    split at h
    · dsimp only at h
      rw [bind_ok_iff] at h
      obtain ⟨⟨v, r1⟩, h1, h⟩ := h
      have l1 := randIntn_later h1
      dsimp only at h
      rw [bind_ok_iff] at h
      obtain ⟨b, -, h⟩ := h
      split at h
      · exact l1.trans (ih _ _ _ h)
      · rw [bind_ok_iff] at h
        obtain ⟨_, -, h⟩ := h
        rw [bind_ok_iff] at h
        obtain ⟨_, -, h⟩ := h
        exact l1.trans (ih _ _ _ h)
    · cases h; exact .refl r

variable {F : Type} [GoFloat F]

theorem mode2_later {fuel n : Nat} {sp : F} {label : List Int} {r : Rng} {o : List Int × Rng} (h : mode2 fuel n sp label r = .ok o) : r.Later o.2 := by
  unfold mode2 at h
  dsimp only at h
  split at h
  · cases h
  · rw [bind_ok_iff] at h
    obtain ⟨_, -, h⟩ := h
    exact mode2Loop_later _ _ _ _ _ h

theorem mode4Padding_later {n : Nat} {order : List Int} {st : List Int × Int} {r : Rng} {o : (List Int × Int) × Rng} (h : mode4Padding n order st r = .ok o) :
    r.Later o.2 := by
  unfold mode4Padding at h
  split at h
  · rw [bind_ok_iff] at h
    obtain ⟨⟨s, r1⟩, h1, h⟩ := h
    have l1 := randIntn_later h1
    dsimp only at h
    rw [bind_ok_iff] at h
    obtain ⟨_, -, h⟩ := h
    rw [bind_ok_iff] at h
    obtain ⟨_, -, h⟩ := h
    split at h
    · rw [bind_ok_iff] at h
      obtain ⟨_, -, h⟩ := h
      cases h; exact l1
    · cases h; exact l1
  · cases h; exact .refl r

theorem mode4_later {softmax : Bool} {l : Int} {n : Nat} {order label : List Int} {actives : List (List Int)} {r : Rng} {o : (List Int × Int) × Rng}
    (h : mode4 softmax l n order label actives r = .ok o) : r.Later o.2 := by
  unfold mode4 at h
  rw [bind_ok_iff] at h
  obtain ⟨_, -, h⟩ := h
  rw [bind_ok_iff] at h
  obtain ⟨_, -, h⟩ := h
  rw [bind_ok_iff] at h
  obtain ⟨⟨st, r1⟩, h1, h⟩ := h
  rw [bind_ok_iff] at h
  obtain ⟨_, -, h⟩ := h
  have l1 := mode4Padding_later h1
  cases h
  exact l1

theorem shuffleNodes_later {n : Nat} {order : List Int} {r : Rng} {o : List Int × Rng} (h : shuffleNodes n order r = .ok o) : r.Later o.2 := by
  unfold shuffleNodes at h
  split at h
  · cases h; exact shuffleFrom_later _ _ _
  · cases h

end Layer

namespace Network
open Configuration Node Layer Xcrepo
variable {F : Type} [GoFloat F]

/-- The computation uses up a prefix of the random draws. -/
def Draws (x : WM F α) : Prop := ∀ (w w' : World F) (a : α), x w = .ok (a, w') → w.rng.Later w'.rng

theorem Draws.pure (a : α) : Draws (Pure.pure a : WM F α) := fun _ _ _ h => by cases h; exact .refl _

theorem Draws.throw (e : Panic) : Draws (M.throw e : WM F α) := fun _ _ _ h => by cases h

theorem Draws.lift (x : Go α) : Draws (M.lift x : WM F α) := fun w w' a h => by
  cases x with
  | error e => cases h
  | ok a => cases h; exact .refl _

theorem Draws.bind {x : WM F α} {f : α → WM F β} (hx : Draws x) (hf : ∀ a, Draws (f a)) : Draws (x >>= f) := by
  intro w w' b h
  obtain ⟨a, w1, h1, h2⟩ := M.bind_eq_ok h
  exact (hx _ _ _ h1).trans (hf _ _ _ _ h2)

theorem Draws.ite {c : Prop} [Decidable c] {x y : WM F α} (hx : Draws x) (hy : Draws y) : Draws (if c then x else y) := by
  split
  · exact hx
  · exact hy

theorem Draws.onHeap (m : NM F α) : Draws (onHeap m : WM F α) := fun w w' a h => by
  unfold Layer.onHeap at h
  split at h
  · cases h; exact .refl _
  · cases h

theorem Draws.draw {f : Rng → Go (α × Rng)} (hf : ∀ r o, f r = .ok o → r.Later o.2) : Draws (draw f : WM F α) := fun w w' a h => by
  unfold Layer.draw at h
  split at h
  · rename_i e
    cases h; exact hf _ _ e
  · cases h

/-- Reading a part of the memory. -/
theorem Draws.read {x : World F → Go α} : Draws (fun w => (x w).map (fun v => (v, w)) : WM F α) := fun w w' a h => by
  dsimp only at h
  cases hx : x w with
  | error e => rw [hx] at h; cases h
  | ok v => rw [hx] at h; cases h; exact .refl _

/-- Changing the memory but not the random source. -/
theorem Draws.write {α β : Type} {x : World F → Go α} {f : α → World F → World F} {g : α → β} (hf : ∀ a w, (f a w).rng = w.rng) :
    Draws (fun w => (x w).map (fun v => (g v, f v w)) : WM F β) := fun w w' a h => by
  dsimp only at h
  cases hx : x w with
  | error e => rw [hx] at h; cases h
  | ok v => rw [hx] at h; cases h; rw [hf]; exact .refl _

theorem Draws.alloc {g : World F → α} {f : World F → World F} (hf : ∀ w, (f w).rng = w.rng) : Draws (fun w => .ok (g w, f w) : WM F α) := fun w w' a h => by
  cases h; rw [hf]; exact .refl _

theorem Draws.layer (p : Ptr) : Draws (layer p : WM F Layer) := Draws.read
theorem Draws.network (p : Ptr) : Draws (network p : WM F (Network F)) := Draws.read
theorem Draws.tables (p : Ptr) : Draws (tables p : WM F Lsh.LSH) := Draws.read
theorem Draws.constAt (s : Slice) (i : Int) : Draws (constAt s i : WM F F) := Draws.read
theorem Draws.layerPtr (s : Slice) (i : Int) : Draws (layerPtr s i : WM F Ptr) := Draws.read
theorem Draws.setConst (s : Slice) (i : Int) (c : F) : Draws (setConst s i c : WM F Unit) :=
  Draws.write (g := fun _ => ()) (f := fun cs w => { w with consts := cs }) (fun _ _ => rfl)
theorem Draws.setLayerPtr (s : Slice) (i : Int) (p : Ptr) : Draws (setLayerPtr s i p : WM F Unit) :=
  Draws.write (g := fun _ => ()) (f := fun ls w => { w with layerArrs := ls }) (fun _ _ => rfl)
theorem Draws.allocLayer (x : Layer) : Draws (allocLayer x : WM F Ptr) := Draws.alloc (fun _ => rfl)
theorem Draws.setLayer (p : Ptr) (x : Layer) : Draws (setLayer p x : WM F Unit) := Draws.alloc (fun _ => rfl)
theorem Draws.allocTables (x : Lsh.LSH) : Draws (allocTables x : WM F Ptr) := Draws.alloc (fun _ => rfl)
theorem Draws.setTables (p : Ptr) (x : Lsh.LSH) : Draws (setTables p x : WM F Unit) := Draws.alloc (fun _ => rfl)
theorem Draws.allocInts (l : List Int) : Draws (allocInts l : WM F Slice) := Draws.alloc (fun _ => rfl)
theorem Draws.setInts (s : Slice) (l : List Int) : Draws (setInts s l : WM F Unit) := Draws.alloc (fun _ => rfl)
theorem Draws.allocNetwork (x : Network F) : Draws (allocNetwork x : WM F Ptr) := Draws.alloc (fun _ => rfl)
theorem Draws.allocLayerArr (l : List Ptr) : Draws (allocLayerArr l : WM F Slice) := Draws.alloc (fun _ => rfl)
theorem Draws.drawNormals (n : Nat) : Draws (drawNormals n : WM F (List F)) := Draws.alloc (fun _ => rfl)

theorem Draws.intsOf (s : Slice) : Draws (intsOf s : WM F (List Int)) := fun w w' a h => by
  unfold Layer.intsOf at h
  split at h
  · cases h; exact .refl _
  · cases h

theorem Draws.allocConsts (n : Int) : Draws (allocConsts n : WM F Slice) := fun w w' a h => by
  unfold Layer.allocConsts at h
  split at h
  · cases h
  · cases h; exact .refl _

theorem Draws.checkLen (n : Int) : Draws (checkLen n : WM F Unit) := Draws.ite (Draws.throw _) (Draws.pure _)

theorem Draws.forM (f : α → WM F Unit) (hf : ∀ a, Draws (f a)) : ∀ (l : List α), Draws (l.forM f)
  | [] => Draws.pure ()
  | a :: l => by
    show Draws (f a >>= fun _ => l.forM f)
    exact (hf a).bind (fun _ => Draws.forM f hf l)

theorem Draws.newHasher (cfg : Config F) (kl dim : Nat) : Draws (newHasher cfg kl dim : WM F Hasher) := by
  unfold Layer.newHasher
  split
  · exact Draws.draw (fun r o h => by cases h; exact Wta.new_later _ _ _)
  · exact Draws.draw (fun r o h => by cases h; exact Dwta.new_later _ _ _)
  · exact fun w w' a h => by cases h; exact Rng.Later.drop _ 3
  · exact Draws.draw (fun r o h => by
      rw [bind_ok_iff] at h
      obtain ⟨x, h1, h⟩ := h
      cases h
      exact Srp.new_later F h1)
  · exact Draws.throw _

theorem Draws.addToHashTable (cfg : Config F) (hasher : Hasher) (t : Ptr) (s : Slice) (id : Int) : Draws (addToHashTable cfg hasher t s id : WM F Unit) :=
  (Draws.onHeap _).bind fun _ => (Draws.onHeap _).bind fun _ => (Draws.lift _).bind fun _ => (Draws.tables _).bind fun _ =>
    (Draws.lift _).bind fun _ => (Draws.lift _).bind fun _ => Draws.setTables _ _

theorem Draws.newArrays (cfg : Config F) (n prev : Int) (a b c d : Slice) : Draws (newArrays cfg n prev a b c d : WM F _) :=
  Draws.ite (Draws.ite (Draws.pure _) (Draws.pure _))
    ((Draws.checkLen _).bind fun _ => (Draws.drawNormals _).bind fun _ => (Draws.onHeap _).bind fun _ => (Draws.drawNormals _).bind fun _ =>
      (Draws.onHeap _).bind fun _ => Draws.ite ((Draws.onHeap _).bind fun _ => (Draws.onHeap _).bind fun _ => Draws.pure _) (Draws.pure _))

theorem Draws.adamSlices (cfg : Config F) (m v : Slice) (i j : Int) : Draws (adamSlices cfg m v i j : WM F _) :=
  Draws.ite ((Draws.lift _).bind fun _ => (Draws.lift _).bind fun _ => Draws.pure _) (Draws.pure _)

theorem Draws.initNode (cfg : Config F) (c prev : Int) (ty : NodeType) (b : Int) (hs : Hasher) (t : Ptr) (arrays : Slice × Slice × Slice × Slice)
    (trains nodes : Slice) (i : Int) : Draws (initNode cfg c prev ty b hs t arrays trains nodes i : WM F Unit) :=
  (Draws.adamSlices _ _ _ _ _).bind fun _ => (Draws.onHeap _).bind fun _ => (Draws.lift _).bind fun _ => (Draws.onHeap _).bind fun _ =>
    (Draws.lift _).bind fun _ => (Draws.onHeap _).bind fun _ => (Draws.onHeap _).bind fun _ => (Draws.onHeap _).bind fun _ => Draws.addToHashTable _ _ _ _ _

theorem Draws.newLayer (cfg : Config F) (c n prev : Int) (ty : NodeType) (b k l rp : Int) (s1 s2 s3 s4 : Slice) :
    Draws (Layer.new cfg c n prev ty b k l rp s1 s2 s3 s4 : WM F Ptr) :=
  (Draws.checkLen _).bind fun _ => (Draws.draw (fun r o h => by cases h; exact shuffle_later _ _)).bind fun _ => (Draws.allocInts _).bind fun _ =>
    (Draws.checkLen _).bind fun _ => (Draws.checkLen _).bind fun _ => (Draws.checkLen _).bind fun _ => (Draws.checkLen _).bind fun _ =>
    (Draws.draw (fun _ _ h => Lsh.new_later h)).bind fun _ => (Draws.allocTables _).bind fun _ => (Draws.newHasher _ _ _).bind fun _ =>
    (Draws.newArrays _ _ _ _ _ _ _).bind fun _ => (Draws.checkLen _).bind fun _ => (Draws.onHeap _).bind fun _ => (Draws.onHeap _).bind fun _ =>
    (Draws.onHeap _).bind fun _ => (Draws.onHeap _).bind fun _ => (Draws.forM _ (fun _ => Draws.initNode _ _ _ _ _ _ _ _ _ _ _) _).bind fun _ =>
    (Draws.ite (Draws.allocConsts _) (Draws.pure _)).bind fun _ => Draws.allocLayer _

theorem Draws.newLayers (cfg : Config F) (c : Int) (sizes types : List Int) (b : Int) (k l rp : List Int) (sp : List F) :
    ∀ n i prev, Draws (newLayers cfg c sizes types b k l rp sp n i prev : WM F (List Ptr))
  | 0, _, _ => Draws.pure _
  | n + 1, i, _ => (Draws.lift _).bind fun _ => (Draws.lift _).bind fun _ => (Draws.lift _).bind fun _ => (Draws.lift _).bind fun _ =>
    (Draws.lift _).bind fun _ => (Draws.lift _).bind fun _ => (Draws.newLayer _ _ _ _ _ _ _ _ _ _ _ _ _).bind fun _ =>
    (Draws.newLayers cfg c sizes types b k l rp sp n (i + 1) _).bind fun _ => Draws.pure _

theorem Draws.new (cfg : Config F) (c n : Int) (sizes types : List Int) (b : Int) (rate : F) (dim : Int) (k l rp : List Int) (sp : List F) :
    Draws (Network.new cfg c n sizes types b rate dim k l rp sp : WM F Ptr) :=
  (Draws.checkLen _).bind fun _ => (Draws.newLayers _ _ _ _ _ _ _ _ _ _ _ _).bind fun _ => (Draws.allocLayerArr _).bind fun _ => Draws.allocNetwork _

theorem Draws.cloneLayer (p : Ptr) (c : Int) : Draws (Layer.cloneIfNeeded p c : WM F Ptr) :=
  (Draws.layer p).bind fun _ => Draws.ite ((Draws.layer p).bind fun _ => Draws.allocLayer _) (Draws.pure p)

theorem Draws.cloneNetwork (p : Ptr) (c : Int) : Draws (Network.cloneIfNeeded p c : WM F Ptr) :=
  (Draws.network p).bind fun _ => Draws.ite ((Draws.network p).bind fun _ => Draws.allocNetwork _) (Draws.pure p)

theorem Draws.updateTable (cfg : Config F) (p : Ptr) (c : Int) : Draws (updateTable cfg p c : WM F Ptr) :=
  (Draws.cloneLayer _ _).bind fun _ => (Draws.layer _).bind fun _ => (Draws.newHasher _ _ _).bind fun _ => (Draws.setLayer _ _).bind fun _ => Draws.pure _

theorem Draws.updateRandomNodes (p : Ptr) : Draws (updateRandomNodes p : WM F Unit) :=
  (Draws.layer _).bind fun _ => (Draws.intsOf _).bind fun _ => (Draws.draw (fun _ _ h => shuffleNodes_later h)).bind fun _ => Draws.setInts _ _

theorem Draws.updateRandom (hidden : Slice) (n : Int) : Draws (updateRandom hidden n : WM F Unit) :=
  Draws.forM _ (fun _ => (Draws.layerPtr _ _).bind fun _ => Draws.updateRandomNodes _) _

theorem Draws.select (cfg : Config F) (fuel : Nat) (x : Layer) (cur : List (Pair F)) (label : List Int) (sp : F) :
    Draws (select cfg fuel x cur label sp : WM F _) := by
  unfold Layer.select
  exact Draws.ite (Draws.pure _) (Draws.ite ((Draws.tables _).bind fun _ => (Draws.lift _).bind fun _ =>
      Draws.bind (fun w w' a h => by cases h; exact .refl _) fun _ => Draws.pure _)
    (Draws.ite (Draws.ite ((Draws.draw (fun _ _ h => mode2_later h)).bind fun _ => Draws.pure _) (Draws.pure _))
      (Draws.ite (Draws.ite ((Draws.onHeap _).bind fun _ => (Draws.onHeap _).bind fun _ => (Draws.lift _).bind fun _ => Draws.pure _) (Draws.pure _))
        (Draws.ite ((Draws.tables _).bind fun _ => (Draws.lift _).bind fun _ => (Draws.intsOf _).bind fun _ =>
          (Draws.draw (fun _ _ h => mode4_later h)).bind fun _ => Draws.pure _) (Draws.pure _)))))

theorem Draws.exponentiate (cowId : Int) (nodes norm : Slice) (inputId : Int) (m : F) :
    ∀ pairs, Draws (exponentiate cowId nodes norm inputId m pairs : WM F (List (Pair F)))
  | [] => Draws.pure []
  | _ :: rest =>
    (Draws.onHeap _).bind fun _ => (Draws.onHeap _).bind fun _ => (Draws.onHeap _).bind fun _ =>
    (Draws.constAt _ _).bind fun _ => (Draws.setConst _ _ _).bind fun _ =>
    (Draws.exponentiate cowId nodes norm inputId m rest).bind fun _ => Draws.pure _

theorem Draws.activations (cowId : Int) (x : Layer) (cur : List (Pair F)) (inputId : Int) (ids : List Int) :
    Draws (activations cowId x cur inputId ids : WM F (List (Pair F))) :=
  Draws.ite
    ((Draws.setConst _ _ _).bind fun _ => (Draws.onHeap _).bind fun _ => Draws.exponentiate _ _ _ _ _ _)
    ((Draws.onHeap _).bind fun _ => Draws.pure _)

theorem Draws.query (cfg : Config F) (fuel : Nat) (p : Ptr) (cowId : Int) (cur : List (Pair F)) (inputId : Int) (label : List Int) (sp : F) :
    Draws (query cfg fuel p cowId cur inputId label sp : WM F _) :=
  (Draws.cloneLayer _ _).bind fun l => (Draws.layer l).bind fun _ => (Draws.select _ _ _ _ _ _).bind fun _ =>
    (Draws.activations _ _ _ _ _).bind fun _ => Draws.pure _

theorem Draws.forward (cfg : Config F) (fuel : Nat) (cowId : Int) (hidden : Slice) (sparsity : List F) (off : Int) (inputId : Int) (label : List Int) :
    ∀ n j cur, Draws (forward cfg fuel cowId hidden sparsity off inputId label n j cur : WM F _)
  | 0, _, _ => Draws.pure []
  | n + 1, j, _ =>
    (Draws.layerPtr _ _).bind fun _ => (Draws.lift _).bind fun _ => (Draws.query _ _ _ _ _ _ _ _).bind fun _ => (Draws.setLayerPtr _ _ _).bind fun _ =>
      (Draws.forward cfg fuel cowId hidden sparsity off inputId label n (j + 1) _).bind fun _ => Draws.pure _

theorem Draws.getNodeById (p : Ptr) (i : Int) : Draws (getNodeById p i : WM F Ptr) :=
  (Draws.layer p).bind fun _ => Draws.onHeap _

theorem Draws.argMax (last : Ptr) (inputId : Int) :
    ∀ (l : List (Pair F)) (first : Bool) (m : F) (c : Int), Draws (argMax last inputId l first m c : WM F Int)
  | [], _, _, _ => Draws.pure _
  | _ :: rest, _, _, _ =>
    (Draws.getNodeById _ _).bind fun _ => (Draws.onHeap _).bind fun _ =>
      Draws.ite (Draws.argMax last inputId rest _ _ _) (Draws.argMax last inputId rest _ _ _)

theorem Draws.predictOne (cfg : Config F) (fuel : Nat) (cowId : Int) (n : Network F) (last : Ptr) (i : Int) (x : List (Pair F)) :
    Draws (predictOne cfg fuel cowId n last i x : WM F Int) :=
  (Draws.forward _ _ _ _ _ _ _ _ _ _ _).bind fun _ => Draws.argMax _ _ _ _ _ _

theorem Draws.predictLoop (cfg : Config F) (fuel : Nat) (cowId : Int) (n : Network F) (last : Ptr) :
    ∀ examples i c, Draws (predictLoop cfg fuel cowId n last examples i c : WM F Int)
  | [], _, _ => Draws.pure _
  | _ :: rest, i, _ => (Draws.predictOne _ _ _ _ _ _ _).bind fun _ => Draws.predictLoop cfg fuel cowId n last rest (i + 1) _

theorem Draws.predictClass (cfg : Config F) (fuel : Nat) (p : Ptr) (c : Int) (es : List (Example F)) : Draws (predictClass cfg fuel p c es : WM F _) :=
  (Draws.cloneNetwork _ _).bind fun _ => (Draws.network _).bind fun _ => (Draws.layerPtr _ _).bind fun _ =>
    (Draws.predictLoop _ _ _ _ _ _ _ _).bind fun _ => Draws.pure _

theorem Draws.backLayer (cfg : Config F) (cowId : Int) (la : Ptr) (isLast : Bool) (prev : Option Ptr) (ex : Example F)
    (cur : List (Pair F)) (lr : F) (inputId : Int) :
    ∀ l, Draws (backLayer cfg cowId la isLast prev ex cur lr inputId l : WM F Unit)
  | [] => Draws.pure ()
  | _ :: rest =>
    (Draws.getNodeById _ _).bind fun _ =>
    (Draws.ite (((Draws.layer _).bind fun _ => Draws.ite (Draws.throw _) (Draws.constAt _ _)).bind
        fun _ => (Draws.onHeap _).bind fun _ => Draws.pure ()) (Draws.pure ())).bind fun _ =>
    Draws.bind (by
      cases prev with
      | none => exact (Draws.onHeap _).bind fun _ => Draws.pure ()
      | some q => exact (Draws.layer _).bind fun _ => (Draws.onHeap _).bind fun _ => Draws.pure ())
    fun _ => Draws.backLayer cfg cowId la isLast prev ex cur lr inputId rest

theorem Draws.backward (cfg : Config F) (cowId : Int) (hidden : Slice) (numberOfLayers : Int) (ex : Example F) (lr : F)
    (inputId : Int) (acts : List (List (Pair F))) :
    ∀ n, Draws (backward cfg cowId hidden numberOfLayers ex lr inputId acts n : WM F Unit)
  | 0 => Draws.pure ()
  | n + 1 =>
    (Draws.layerPtr _ _).bind fun _ => (Draws.lift _).bind fun _ => (Draws.lift _).bind fun _ =>
    (Draws.ite (Draws.pure _) ((Draws.layerPtr _ _).bind fun _ => Draws.pure _)).bind fun _ =>
    (Draws.backLayer _ _ _ _ _ _ _ _ _ _).bind fun _ =>
    Draws.backward cfg cowId hidden numberOfLayers ex lr inputId acts n

theorem Draws.trainLoop (cfg : Config F) (fuel : Nat) (cowId : Int) (n : Network F) (lr : F) :
    ∀ examples i, Draws (trainLoop cfg fuel cowId n lr examples i : WM F Unit)
  | [], _ => Draws.pure _
  | _ :: rest, i =>
    (Draws.forward _ _ _ _ _ _ _ _ _ _ _).bind fun _ => (Draws.backward _ _ _ _ _ _ _ _ _).bind fun _ =>
      Draws.trainLoop cfg fuel cowId n lr rest (i + 1)

theorem Draws.finishNode (cfg : Config F) (cowId : Int) (lr : F) (la : Ptr) (rehash : Bool) (m : Int) :
    Draws (finishNode cfg cowId lr la rehash m : WM F Unit) :=
  (Draws.getNodeById _ _).bind fun _ => (Draws.onHeap _).bind fun _ => (Draws.onHeap _).bind fun _ =>
    Draws.ite ((Draws.layer _).bind fun _ => Draws.addToHashTable _ _ _ _ _) (Draws.pure ())

theorem Draws.rebuildLayer (cfg : Config F) (cowId : Int) (hidden : Slice) (j : Int) (la : Ptr) (rebuild : Bool) :
    Draws (rebuildLayer cfg cowId hidden j la rebuild : WM F Unit) :=
  Draws.ite ((Draws.updateTable _ _ _).bind fun _ => Draws.setLayerPtr _ _ _) (Draws.pure ())

theorem Draws.clearHashTables (p : Ptr) : Draws (clearHashTables p : WM F Unit) :=
  (Draws.layer _).bind fun _ => (Draws.tables _).bind fun _ => Draws.setTables _ _

theorem Draws.finishLayer (cfg : Config F) (cowId : Int) (n : Network F) (lr : F) (rehash rebuild : Bool) (j : Int) :
    Draws (finishLayer cfg cowId n lr rehash rebuild j : WM F Unit) := by
  have rest : ∀ (la : Ptr) (b1 b2 : Bool), Draws (do
      Network.rebuildLayer cfg cowId n.hiddenLayers j la b1
      let x ← Layer.layer la
      ((List.range x.nodes.len).map (fun (i : Nat) => (i : Int))).forM (Network.finishNode cfg cowId lr la b2) : WM F Unit) := fun la b1 b2 =>
    (Draws.rebuildLayer _ _ _ _ _ _).bind fun _ => (Draws.layer _).bind fun _ => Draws.forM _ (fun _ => Draws.finishNode _ _ _ _ _ _) _
  exact (Draws.layerPtr _ _).bind fun _ => (Draws.lift _).bind fun _ =>
    Draws.ite ((Draws.clearHashTables _).bind fun _ => rest _ _ _) ((Draws.pure ()).bind fun _ => rest _ _ _)

theorem Draws.processInput (cfg : Config F) (fuel : Nat) (p : Ptr) (c : Int) (es : List (Example F)) (iter : Int) (rehash rebuild : Bool) :
    Draws (processInput cfg fuel p c es iter rehash rebuild : WM F (F × Ptr)) := by
  refine (Draws.cloneNetwork _ _).bind fun q => (Draws.network _).bind fun m => ?_
  have rest : Draws (do
      Network.trainLoop cfg fuel c m (stepSize cfg m.learningRate iter) es 0
      ((List.range m.hiddenLayers.len).map (fun (i : Nat) => (i : Int))).forM
        (Network.finishLayer cfg c m (stepSize cfg m.learningRate iter) rehash rebuild)
      Pure.pure (GoFloat.zero, q) : WM F (F × Ptr)) :=
    (Draws.trainLoop _ _ _ _ _ _ _).bind fun _ => (Draws.forM _ (fun _ => Draws.finishLayer _ _ _ _ _ _ _) _).bind fun _ => Draws.pure _
  exact Draws.ite ((Draws.updateRandom _ _).bind fun _ => rest) ((Draws.pure ()).bind fun _ => rest)

end Network
end Goslide
