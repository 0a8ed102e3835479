import Verif.Lemmas.Collect
import Verif.Lemmas.Example
import Verif.Model.Utilities
import Mathlib.LinearAlgebra.Matrix.Notation

/-! # C61: mini-batches of matrices -/

namespace Verif.Utilities
open Spec
variable {R : Type} {m n p : Nat}

theorem NewAll.mats {h h1 h' : Heap R} {rs : List Ref} {k c : Nat} (hk : rs.length = k) {G : Nat → Nat → Nat → R}
    (na : NewAll h1 h' rs fun t l h' => ∃ o, l = .m o ∧ Cells h' l n c (G t)) (k1 : h.next ≤ h1.next)
    (B : Fin k → Matrix (Fin c) (Fin n) R) (e : ∀ t i j, B t i j = G t i j) : NewMats h h' rs B := by
  refine ⟨hk, na.1, fun i => ?_⟩
  obtain ⟨l, e1, e2, e3, o, rfl, c1⟩ := na.2 i (hk ▸ i.2)
  refine ⟨o, e1, fun q => e2 ?_, e3, c1.isMat fun a b => e i a b⟩
  unfold Heap.live at *; omega

theorem NewAll.vecs {h h1 h' : Heap R} {rs : List Ref} {k c : Nat} (hk : rs.length = k) {G : Nat → Nat → R}
    (na : NewAll h1 h' rs fun t l h' => ∃ o, l = .v o ∧ VCells h' l c (G t)) (k1 : h.next ≤ h1.next)
    (B : Fin k → Fin c → R) (e : ∀ t i, B t i = G t i) : NewVecs h h' rs B := by
  refine ⟨hk, na.1, fun i => ?_⟩
  obtain ⟨l, e1, e2, e3, o, rfl, c1⟩ := na.2 i (hk ▸ i.2)
  refine ⟨o, e1, fun q => e2 ?_, e3, c1.isVec fun a => e i a⟩
  unfold Heap.live at *; omega

theorem tdiv_toNat (m k : Nat) : ((m : Int).tdiv (k : Int)).toNat = m / k := by
  rw [← Int.ofNat_tdiv, Int.toNat_natCast]

/-- What `create_mini_batchesm` computes, when no row index is out of range. -/
theorem create_mini_batchesm_run {h : Heap R} (w : h.WF) {a : Nat} (la : h.live (.m a)) {A : Matrix (Fin m) (Fin n) R}
    (ha : IsMat h a A) {k : Nat} (hk : 0 < k) (hr : ∀ (i : Fin k) (j : Fin (m / k)), k * i.val + j.val < m) :
    Runs (create_mini_batchesm (some (.m a)) (k : Int)) h fun rs h' => h'.WF ∧ Keeps h h' (fun _ => False) ∧
      NewMats h h' rs fun (i : Fin k) (j : Fin (m / k)) y => A ⟨k * i.val + j.val, hr i j⟩ y := by
  obtain ⟨F, eF, ca⟩ := ha.cells w
  unfold create_mini_batchesm
  refine Runs.step (a := a) (h' := h) rfl ?_
  refine Runs.step (Mat.size_run a h) ?_
  rw [ca.1]
  dsimp only
  rw [if_neg (by omega), tdiv_toNat, Int.toNat_natCast]
  refine Runs.newVec w ⟨rfl, rfl⟩ ?_
  intro h1 w1 k1 nl1 ll1 s1
  have ca1 := ca.keep k1 la nofun
  have la1 := k1.live la
  generalize h.next = row at *
  refine (Runs.foldN k (fun i rs h' => h'.WF ∧ rs.length = i ∧ Keeps h h' (fun _ => False) ∧ Keeps h1 h' (· = .v row) ∧
    Cells h' (.m a) n m F ∧
    NewAll h1 h' rs fun t l h' => ∃ o, l = .m o ∧ Cells h' l n (m / k) fun j y => F (k * t + j) y) _ _ _
    ⟨w1, rfl, k1, Keeps.refl _ _, ca1, NewAll.nil _ _ _⟩ ?_).mono ?_
  · rintro i rs h2 hi ⟨w2, el, k2, kr2, ca2, na⟩
    refine Runs.newMat w2 rfl ?_
    intro h3 w3 k3 nl3 ll3 s3
    have hne : a ≠ h2.next := fun e => nl3 (e ▸ kr2.live la1)
    have nlb : ¬ h.live (.m h2.next) := fun q => nl3 (k2.live q)
    generalize h2.next = b at *
    obtain ⟨G, cb⟩ := exists_Cells w3 s3
    have ca3 := ca2.keep k3 (kr2.live la1) nofun
    refine Runs.bind ((Runs.forN (m / k) (fun j h' => h'.WF ∧ h'.next = h3.next ∧ Keeps h3 h' (fun l => l = .v row ∨ l = .m b) ∧
      Cells h' (.m a) n m F ∧ Cells h' (.m b) n (m / k) fun x y => if x < j then F (k * i + x) y else G x y) _ _
      ⟨w3, rfl, Keeps.refl _ _, ca3, cb.congr fun _ _ _ _ => by simp⟩ ?_).mono ?_)
    · rintro j h4 hj ⟨w4, n4, k4, ca4, cb4⟩
      have hm := hr ⟨i, hi⟩ ⟨j, hj⟩
      have lv4 : h4.live (.m a) := k4.live (k3.live (kr2.live la1))
      rw [show ((k : Int) * (i : Int) + (j : Int)) = ((k * i + j : Nat) : Int) by push_cast; ring]
      refine (Mat.copyRow_run w4 ca4 cb4 hm hj).mono ?_
      rintro _ h5 ⟨w5, n5, k5, cb5⟩
      refine ⟨w5, n5.trans n4, k4.trans k5, ca4.keep k5 lv4 (by simp [hne]), cb5.congr fun x y _ _ => ?_⟩
      grind
    · rintro _ h4 ⟨w4, n4, k4, ca4, cb4⟩
      have k24 : Keeps h2 h4 (· = .v row) := by
        refine (k3.mono fun _ _ q => q.elim).trans_new k4 ?_
        rintro l (e | rfl) hl
        · exact e
        · exact absurd hl nl3
      refine ⟨w4, by simp [el], k2.newer k24 (by rintro l rfl; exact nl1), kr2.trans k24, ca4, ?_⟩
      refine na.snoc k24 (by rintro l _ rfl; exact ll1) ?_ kr2.1 nl3 (k4.live ll3) ?_
      · rintro t l hl hs ⟨o, rfl, c⟩
        exact ⟨o, rfl, c.keep k24 hl hs⟩
      · exact ⟨b, rfl, cb4.congr fun x y hx _ => by simp [hx, el]⟩
  · rintro rs h2 ⟨w2, el, k2, _, _, na⟩
    exact ⟨w2, k2, NewAll.mats el na k1.1 _ fun t i j => eF _ _⟩

/-- What `create_mini_batchesmv` computes. -/
theorem create_mini_batchesmv_run [Zero R] {h : Heap R} (w : h.WF) {a y : Nat} (la : h.live (.m a)) (ly : h.live (.v y))
    {A : Matrix (Fin m) (Fin n) R} {v : Fin m → R} (ha : IsMat h a A) (hy : IsVec h y v) {k : Nat} (hk : 0 < k)
    (hr : ∀ (i : Fin k) (j : Fin (m / k)), m / k * i.val + j.val < m) :
    Runs (create_mini_batchesmv (some (.m a)) (some (.v y)) (k : Int)) h fun rs h' => h'.WF ∧ Keeps h h' (fun _ => False) ∧
      (NewMats h h' rs.1 fun (i : Fin k) (j : Fin (m / k)) x => A ⟨m / k * i.val + j.val, hr i j⟩ x) ∧
      NewVecs h h' rs.2 fun (_ : Fin k) (j : Fin (m / k)) => v ⟨j.val, j.2.trans_le (Nat.div_le_self m k)⟩ := by
  obtain ⟨F, eF, ca⟩ := ha.cells w
  obtain ⟨f, ef, cy⟩ := hy.cells w
  unfold create_mini_batchesmv
  refine Runs.step (a := a) (h' := h) rfl ?_
  refine Runs.step (Mat.size_run a h) ?_
  rw [ca.1]
  dsimp only
  rw [if_neg (by omega), tdiv_toNat, Int.toNat_natCast]
  refine Runs.newVec w ⟨rfl, rfl⟩ ?_
  intro h1 w1 k1 nl1 ll1 s1
  have ca1 := ca.keep k1 la nofun
  have la1 := k1.live la
  have cy1 := cy.keep k1 ly nofun
  have ly1 := k1.live ly
  have hney : y ≠ h.next := fun e => nl1 (e ▸ ly)
  generalize h.next = row at *
  refine (Runs.foldN k (fun i rs h' => h'.WF ∧ (rs.1.length = i ∧ rs.2.length = i) ∧ Keeps h h' (fun _ => False) ∧ Keeps h1 h' (· = .v row) ∧
    (Cells h' (.m a) n m F ∧ VCells h' (.v y) m f) ∧
    (NewAll h1 h' rs.1 fun t l h' => ∃ o, l = .m o ∧ Cells h' l n (m / k) fun j x => F (m / k * t + j) x) ∧
    (NewAll h1 h' rs.2 fun _ l h' => ∃ o, l = .v o ∧ VCells h' l (m / k) f)) _ _ _
    ⟨w1, ⟨rfl, rfl⟩, k1, Keeps.refl _ _, ⟨ca1, cy1⟩, NewAll.nil _ _ _, NewAll.nil _ _ _⟩ ?_).mono ?_
  · rintro i ⟨rs, os⟩ h2 hi ⟨w2, ⟨el, el'⟩, k2, kr2, ⟨ca2, cy2⟩, na, no⟩
    dsimp only at el el' na no
    refine Runs.newMat w2 rfl ?_
    intro h3 w3 k3 nl3 ll3 s3
    have hne : a ≠ h2.next := fun e => nl3 (e ▸ kr2.live la1)
    generalize h2.next = b at *
    refine Runs.newVec w3 ⟨rfl, rfl⟩ ?_
    intro h3' w3' k3' nl3' ll3' s3'
    have hne' : y ≠ h3.next := fun e => nl3' (e ▸ k3.live (kr2.live ly1))
    have hrow : row ≠ h3.next := fun e => nl3' (e ▸ k3.live (kr2.live ll1))
    have nlo2 : ¬ h2.live (.v h3.next) := fun q => nl3' (k3.live q)
    have k23 : Keeps h2 h3' (fun _ => False) := k3.trans k3'
    have s3b : h3'.size (.m b) = ⟨n, m / k, 1⟩ := by rw [(k3'.2 _ ll3 nofun).2]; exact s3
    have ll3b := k3'.live ll3
    generalize h3.next = o at *
    obtain ⟨G, cb⟩ := exists_Cells w3' s3b
    obtain ⟨g, co⟩ := exists_VCells w3' s3'
    have la3 := k23.live (kr2.live la1)
    have ly3 := k23.live (kr2.live ly1)
    have ca3 := ca2.keep k23 (kr2.live la1) nofun
    have cy3 := cy2.keep k23 (kr2.live ly1) nofun
    refine Runs.bind ((Runs.forN (m / k) (fun j h' => h'.WF ∧ Keeps h3' h' (fun l => l = .v row ∨ l = .m b ∨ l = .v o) ∧
      (Cells h' (.m b) n (m / k) fun x z => if x < j then F (m / k * i + x) z else G x z) ∧
      VCells h' (.v o) (m / k) fun x => if x < j then f x else g x) _ _
      ⟨w3', Keeps.refl _ _, cb.congr fun _ _ _ _ => by simp, co.congr fun _ _ => by simp⟩ ?_).mono ?_)
    · rintro j h4 hj ⟨w4, k4, cb4, co4⟩
      have hm := hr ⟨i, hi⟩ ⟨j, hj⟩
      have ca4 := ca3.keep k4 la3 (by simp [hne])
      have cy4 := cy3.keep k4 ly3 (by simp [hney, hne'])
      rw [← bind_assoc]
      refine Runs.bind ((Mat.copyRow_run w4 ca4 cb4 hm hj).mono ?_)
      rintro _ h5 ⟨w5, n5, k5, cb5⟩
      have cy5 := cy4.keep k5 (k4.live ly3) (by simp [Loc.id, hney])
      have co5 := co4.keep k5 (k4.live ll3') (by simp [Loc.id, hrow.symm])
      refine Runs.step (a := y) (h' := h5) rfl ?_
      refine Runs.step (Vec.get_cells w5 cy5 (hj.trans_le (Nat.div_le_self m k))) ?_
      refine (Vec.set_cells w5 co5 hj (f j)).mono ?_
      rintro _ h6 ⟨w6, k6, n6, co6⟩
      refine ⟨w6, (k4.trans (k5.mono fun l _ e => by tauto)).trans (k6.mono fun l _ e => by tauto),
        (cb5.keep k6 (k5.live (k4.live ll3b)) nofun).congr fun x z _ _ => ?_, co6.congr fun x _ => ?_⟩
      · grind
      · unfold SortArray.upd; grind
    · rintro _ h4 ⟨w4, k4, cb4, co4⟩
      have k24 : Keeps h2 h4 (· = .v row) := by
        refine (k23.mono fun _ _ q => q.elim).trans_new k4 ?_
        rintro l (e | rfl | rfl) hl
        · exact e
        · exact absurd hl nl3
        · exact absurd hl nlo2
      have kk : Keeps h h4 (fun _ => False) := k2.newer k24 (by rintro l rfl; exact nl1)
      refine ⟨w4, ⟨by simp [el], by simp [el']⟩, kk, kr2.trans k24, ⟨ca.keep kk la nofun, cy.keep kk ly nofun⟩, ?_, ?_⟩
      · refine na.snoc k24 (by rintro l _ rfl; exact ll1) ?_ kr2.1 nl3 (k4.live ll3b) ?_
        · rintro t l hl hs ⟨o, rfl, c⟩
          exact ⟨o, rfl, c.keep k24 hl hs⟩
        · exact ⟨b, rfl, cb4.congr fun x y hx _ => by simp [hx, el]⟩
      · refine no.snoc k24 (by rintro l _ rfl; exact ll1) ?_ kr2.1 nlo2 (k4.live ll3') ?_
        · rintro t l hl hs ⟨o, rfl, c⟩
          exact ⟨o, rfl, c.keep k24 hl hs⟩
        · exact ⟨o, rfl, co4.congr fun x hx => by simp [hx]⟩
  · rintro rs h2 ⟨w2, ⟨el, el'⟩, k2, _, _, na, no⟩
    exact ⟨w2, k2, NewAll.mats el na k1.1 _ fun t i j => eF _ _, NewAll.vecs el' no k1.1 _ fun t i => ef _⟩

/-- What `create_mini_batchesmm` computes, when no row index is out of range. -/
theorem create_mini_batchesmm_run {h : Heap R} (w : h.WF) {a y : Nat} (la : h.live (.m a)) (ly : h.live (.m y))
    {A : Matrix (Fin m) (Fin n) R} {Y : Matrix (Fin m) (Fin p) R} (ha : IsMat h a A) (hy : IsMat h y Y) {k : Nat} (hk : 0 < k)
    (hr : ∀ (i : Fin k) (j : Fin (m / k)), k * i.val + j.val < m) :
    Runs (create_mini_batchesmm (some (.m a)) (some (.m y)) (k : Int)) h fun rs h' => h'.WF ∧ Keeps h h' (fun _ => False) ∧
      (NewMats h h' rs.1 fun (i : Fin k) (j : Fin (m / k)) x => A ⟨k * i.val + j.val, hr i j⟩ x) ∧
      NewMats h h' rs.2 fun (i : Fin k) (j : Fin (m / k)) x => Y ⟨k * i.val + j.val, hr i j⟩ x := by
  obtain ⟨F, eF, ca⟩ := ha.cells w
  obtain ⟨f, ef, cy⟩ := hy.cells w
  unfold create_mini_batchesmm
  refine Runs.step (a := a) (h' := h) rfl ?_
  refine Runs.step (Mat.size_run a h) ?_
  refine Runs.step (a := y) (h' := h) rfl ?_
  refine Runs.step (Mat.size_run y h) ?_
  rw [ca.1, cy.1]
  dsimp only
  rw [if_neg (by omega), tdiv_toNat, Int.toNat_natCast]
  refine Runs.newVec w ⟨rfl, rfl⟩ ?_
  intro h0 w0 k0 nl0 ll0 s0
  refine Runs.newVec w0 ⟨rfl, rfl⟩ ?_
  intro h1 w1 k01 nl1 ll1 s1
  have k1 : Keeps h h1 (fun _ => False) := k0.trans k01
  have ca1 := ca.keep k1 la nofun
  have la1 := k1.live la
  have cy1 := cy.keep k1 ly nofun
  have ly1 := k1.live ly
  have llr := k01.live ll0
  have nlo : ¬ h.live (.v h0.next) := fun q => nl1 (k0.live q)
  generalize h.next = row at *
  generalize h0.next = orow at *
  refine (Runs.foldN k (fun i rs h' => h'.WF ∧ (rs.1.length = i ∧ rs.2.length = i) ∧ Keeps h h' (fun _ => False) ∧
    Keeps h1 h' (fun l => l = .v row ∨ l = .v orow) ∧ (Cells h' (.m a) n m F ∧ Cells h' (.m y) p m f) ∧
    (NewAll h1 h' rs.1 fun t l h' => ∃ o, l = .m o ∧ Cells h' l n (m / k) fun j x => F (k * t + j) x) ∧
    (NewAll h1 h' rs.2 fun t l h' => ∃ o, l = .m o ∧ Cells h' l p (m / k) fun j x => f (k * t + j) x)) _ _ _
    ⟨w1, ⟨rfl, rfl⟩, k1, Keeps.refl _ _, ⟨ca1, cy1⟩, NewAll.nil _ _ _, NewAll.nil _ _ _⟩ ?_).mono ?_
  · rintro i ⟨rs, os⟩ h2 hi ⟨w2, ⟨el, el'⟩, k2, kr2, ⟨ca2, cy2⟩, na, no⟩
    dsimp only at el el' na no
    refine Runs.newMat w2 rfl ?_
    intro h3 w3 k3 nl3 ll3 s3
    have hne : a ≠ h2.next := fun e => nl3 (e ▸ kr2.live la1)
    have hney : y ≠ h2.next := fun e => nl3 (e ▸ kr2.live ly1)
    generalize h2.next = b at *
    refine Runs.newMat w3 rfl ?_
    intro h3' w3' k3' nl3' ll3' s3'
    have hne' : y ≠ h3.next := fun e => nl3' (e ▸ k3.live (kr2.live ly1))
    have hne2 : a ≠ h3.next := fun e => nl3' (e ▸ k3.live (kr2.live la1))
    have hbo : b ≠ h3.next := fun e => nl3' (e ▸ ll3)
    have nlo2 : ¬ h2.live (.m h3.next) := fun q => nl3' (k3.live q)
    have k23 : Keeps h2 h3' (fun _ => False) := k3.trans k3'
    have s3b : h3'.size (.m b) = ⟨n, m / k, 1⟩ := by rw [(k3'.2 _ ll3 nofun).2]; exact s3
    have ll3b := k3'.live ll3
    generalize h3.next = o at *
    obtain ⟨G, cb⟩ := exists_Cells w3' s3b
    obtain ⟨g, co⟩ := exists_Cells w3' s3'
    have la3 := k23.live (kr2.live la1)
    have ly3 := k23.live (kr2.live ly1)
    have ca3 := ca2.keep k23 (kr2.live la1) nofun
    have cy3 := cy2.keep k23 (kr2.live ly1) nofun
    refine Runs.bind ((Runs.forN (m / k) (fun j h' => h'.WF ∧
      Keeps h3' h' (fun l => (l = .v row ∨ l = .v orow) ∨ l = .m b ∨ l = .m o) ∧
      (Cells h' (.m b) n (m / k) fun x z => if x < j then F (k * i + x) z else G x z) ∧
      Cells h' (.m o) p (m / k) fun x z => if x < j then f (k * i + x) z else g x z) _ _
      ⟨w3', Keeps.refl _ _, cb.congr fun _ _ _ _ => by simp, co.congr fun _ _ _ _ => by simp⟩ ?_).mono ?_)
    · rintro j h4 hj ⟨w4, k4, cb4, co4⟩
      have hm := hr ⟨i, hi⟩ ⟨j, hj⟩
      have ca4 := ca3.keep k4 la3 (by simp [hne, hne2])
      have cy4 := cy3.keep k4 ly3 (by simp [hney, hne'])
      rw [show ((k : Int) * (i : Int) + (j : Int)) = ((k * i + j : Nat) : Int) by push_cast; ring]
      rw [← bind_assoc]
      refine Runs.bind ((Mat.copyRow_run w4 ca4 cb4 hm hj).mono ?_)
      rintro _ h5 ⟨w5, n5, k5, cb5⟩
      have cy5 := cy4.keep k5 (k4.live ly3) (by simp [hney])
      have co5 := co4.keep k5 (k4.live ll3') (by simp [hbo.symm])
      refine (Mat.copyRow_run w5 cy5 co5 hm hj).mono ?_
      rintro _ h6 ⟨w6, n6, k6, co6⟩
      refine ⟨w6, (k4.trans (k5.mono fun l _ e => by tauto)).trans (k6.mono fun l _ e => by tauto),
        (cb5.keep k6 (k5.live (k4.live ll3b)) (by simp [hbo])).congr fun x z _ _ => ?_, co6.congr fun x z _ _ => ?_⟩
      · grind
      · grind
    · rintro _ h4 ⟨w4, k4, cb4, co4⟩
      have k24 : Keeps h2 h4 (fun l => l = .v row ∨ l = .v orow) := by
        refine (k23.mono fun _ _ q => q.elim).trans_new k4 ?_
        rintro l (e | rfl | rfl) hl
        · exact e
        · exact absurd hl nl3
        · exact absurd hl nlo2
      have kk : Keeps h h4 (fun _ => False) := k2.newer k24 (by rintro l (rfl | rfl); exacts [nl0, nlo])
      have hS : ∀ l, h2.live l → (l = .v row ∨ l = .v orow) → h1.live l := by rintro l _ (rfl | rfl); exacts [llr, ll1]
      refine ⟨w4, ⟨by simp [el], by simp [el']⟩, kk, kr2.trans k24, ⟨ca.keep kk la nofun, cy.keep kk ly nofun⟩, ?_, ?_⟩
      · refine na.snoc k24 hS ?_ kr2.1 nl3 (k4.live ll3b) ?_
        · rintro t l hl hs ⟨o, rfl, c⟩
          exact ⟨o, rfl, c.keep k24 hl hs⟩
        · exact ⟨b, rfl, cb4.congr fun x y hx _ => by simp [hx, el]⟩
      · refine no.snoc k24 hS ?_ kr2.1 nlo2 (k4.live ll3') ?_
        · rintro t l hl hs ⟨o, rfl, c⟩
          exact ⟨o, rfl, c.keep k24 hl hs⟩
        · exact ⟨o, rfl, co4.congr fun x y hx _ => by simp [hx, el']⟩
  · rintro rs h2 ⟨w2, ⟨el, el'⟩, k2, _, _, na, no⟩
    exact ⟨w2, k2, NewAll.mats el na k1.1 _ fun t i j => eF _ _, NewAll.mats el' no k1.1 _ fun t i j => ef _ _⟩

theorem batch_row (m k : Nat) (i : Fin k) (j : Fin (m / k)) : m / k * i.val + j.val < m := by
  have h1 : m / k * i.val + m / k ≤ m / k * k := by
    rw [← Nat.mul_succ]; exact Nat.mul_le_mul_left _ i.2
  have h2 := Nat.div_mul_le_self m k
  have := j.2
  omega

/-- C61: `create_mini_batchesmv` returns `k` new matrices; the `i`-th contains the rows from `c * i` to `c * i + c - 1`, where
`c = m / k`. (The other half of the claim, about the outputs, fails: see `C61_outputs_fails`.) -/
theorem C61_mv_inputs_partial [Zero R] {h : Heap R} (w : h.WF) {a y : Nat} (la : h.live (.m a)) (ly : h.live (.v y))
    {A : Matrix (Fin m) (Fin n) R} {v : Fin m → R} (ha : IsMat h a A) (hy : IsVec h y v) {k : Nat} (hk : 0 < k) :
    Runs (create_mini_batchesmv (some (.m a)) (some (.v y)) (k : Int)) h fun rs h' => h'.WF ∧ Keeps h h' (fun _ => False) ∧
      NewMats h h' rs.1 fun (i : Fin k) (j : Fin (m / k)) x => A ⟨m / k * i.val + j.val, batch_row m k i j⟩ x :=
  (create_mini_batchesmv_run w la ly ha hy hk (batch_row m k)).mono fun _ _ q => ⟨q.1, q.2.1, q.2.2.1⟩

/-- C61: the outputs of every batch made by `create_mini_batchesmv` are the first `m / k` outputs, not those of the batch's rows. -/
theorem C61_outputs_fails [Zero R] {h : Heap R} (w : h.WF) {a y : Nat} (la : h.live (.m a)) (ly : h.live (.v y))
    {A : Matrix (Fin m) (Fin n) R} {v : Fin m → R} (ha : IsMat h a A) (hy : IsVec h y v) {k : Nat} (hk : 0 < k) :
    Runs (create_mini_batchesmv (some (.m a)) (some (.v y)) (k : Int)) h fun rs h' =>
      NewVecs h h' rs.2 fun (_ : Fin k) (j : Fin (m / k)) => v ⟨j.val, j.2.trans_le (Nat.div_le_self m k)⟩ :=
  (create_mini_batchesmv_run w la ly ha hy hk (batch_row m k)).mono fun _ _ q => q.2.2.2

/-- C61: `create_mini_batchesm` returns the batches of consecutive rows when their number equals their size. -/
theorem C61_m_square_partial {h : Heap R} (w : h.WF) {a : Nat} (la : h.live (.m a)) {A : Matrix (Fin m) (Fin n) R}
    (ha : IsMat h a A) {k : Nat} (hk : 0 < k) (hs : m / k = k) :
    Runs (create_mini_batchesm (some (.m a)) (k : Int)) h fun rs h' => h'.WF ∧ Keeps h h' (fun _ => False) ∧
      NewMats h h' rs fun (i : Fin k) (j : Fin (m / k)) x => A ⟨m / k * i.val + j.val, batch_row m k i j⟩ x := by
  have hr : ∀ (i : Fin k) (j : Fin (m / k)), k * i.val + j.val < m := by
    intro i j; exact (congrArg (· * i.val + j.val) hs).symm.trans_lt (batch_row m k i j)
  refine (create_mini_batchesm_run w la ha hk hr).mono fun rs h' q => ⟨q.1, q.2.1, ?_⟩
  have e : (fun (i : Fin k) (j : Fin (m / k)) x => A ⟨m / k * i.val + j.val, batch_row m k i j⟩ x) =
      fun (i : Fin k) (j : Fin (m / k)) x => A ⟨k * i.val + j.val, hr i j⟩ x := by
    funext i j x; congr 2; exact congrArg (· * i.val + j.val) hs
  rw [e]; exact q.2.2

/-- C61: `create_mini_batchesmm` returns the batches of consecutive rows of inputs and outputs when their number equals their size. -/
theorem C61_mm_square_partial {h : Heap R} (w : h.WF) {a y : Nat} (la : h.live (.m a)) (ly : h.live (.m y))
    {A : Matrix (Fin m) (Fin n) R} {Y : Matrix (Fin m) (Fin p) R} (ha : IsMat h a A) (hy : IsMat h y Y) {k : Nat} (hk : 0 < k)
    (hs : m / k = k) :
    Runs (create_mini_batchesmm (some (.m a)) (some (.m y)) (k : Int)) h fun rs h' => h'.WF ∧ Keeps h h' (fun _ => False) ∧
      (NewMats h h' rs.1 fun (i : Fin k) (j : Fin (m / k)) x => A ⟨m / k * i.val + j.val, batch_row m k i j⟩ x) ∧
      NewMats h h' rs.2 fun (i : Fin k) (j : Fin (m / k)) x => Y ⟨m / k * i.val + j.val, batch_row m k i j⟩ x := by
  have hr : ∀ (i : Fin k) (j : Fin (m / k)), k * i.val + j.val < m := by
    intro i j; exact (congrArg (· * i.val + j.val) hs).symm.trans_lt (batch_row m k i j)
  refine (create_mini_batchesmm_run w la ly ha hy hk hr).mono fun rs h' q => ⟨q.1, q.2.1, ?_, ?_⟩
  · have e : (fun (i : Fin k) (j : Fin (m / k)) x => A ⟨m / k * i.val + j.val, batch_row m k i j⟩ x) =
        fun (i : Fin k) (j : Fin (m / k)) x => A ⟨k * i.val + j.val, hr i j⟩ x := by
      funext i j x; congr 2; exact congrArg (· * i.val + j.val) hs
    rw [e]; exact q.2.2.1
  · have e : (fun (i : Fin k) (j : Fin (m / k)) x => Y ⟨m / k * i.val + j.val, batch_row m k i j⟩ x) =
        fun (i : Fin k) (j : Fin (m / k)) x => Y ⟨k * i.val + j.val, hr i j⟩ x := by
      funext i j x; congr 2; exact congrArg (· * i.val + j.val) hs
    rw [e]; exact q.2.2.2

/-- C61: in general `create_mini_batchesm` and `create_mini_batchesmm` start batch `i` at row `k * i`: with 8 rows and 2 batches, row 2
is in both batches and row 6 in none. -/
theorem C61_overlap_fails {h : Heap R} (w : h.WF) {a : Nat} (la : h.live (.m a)) {A : Matrix (Fin 8) (Fin n) R} (ha : IsMat h a A) :
    Runs (create_mini_batchesm (some (.m a)) 2) h fun rs h' => NewMats h h' rs fun (i : Fin 2) (j : Fin (8 / 2)) x =>
      A ⟨2 * i.val + j.val, by have := i.2; have := j.2; omega⟩ x :=
  (create_mini_batchesm_run (k := 2) w la ha (by omega) (by intro i j; have := i.2; have := j.2; omega)).mono fun _ _ q => q.2.2

/-- The hypotheses of `C61_mv_inputs_partial` are met by four rows cut into two batches; the second batch has rows 2 and 3, and the first two
outputs. -/
example : ∃ h : Heap Int, h.WF ∧ h.live (.m 0) ∧ h.live (.v 0) ∧ IsMat h 0 !![1; 2; 3; 4] ∧ IsVec h 0 ![5, 6, 7, 8] ∧
    (create_mini_batchesmv (some (.m 0)) (some (.v 0)) 2 h).valOf = some ([some (.m 3), some (.m 5)], [some (.v 4), some (.v 6)]) ∧
    (create_mini_batchesmv (some (.m 0)) (some (.v 0)) 2 h).bufOf (.m 5) = some [3, 4] ∧
    (create_mini_batchesmv (some (.m 0)) (some (.v 0)) 2 h).bufOf (.v 6) = some [5, 6] := by
  refine ⟨Heap.ofLists 0 [[5, 6, 7, 8]] [(1, 4, [1, 2, 3, 4])], Heap.ofLists_wf _ _ _ (by simp), by simp [Heap.ofLists, Heap.live, Loc.id],
    by simp [Heap.ofLists, Heap.live, Loc.id], ⟨rfl, by intro i j; fin_cases i <;> fin_cases j <;> rfl⟩,
    ⟨rfl, fun i => by fin_cases i <;> rfl⟩, ?_, ?_, ?_⟩ <;> decide +kernel

end Verif.Utilities
