/-
C118, C119: the orders that the circular truncation retains. They are the same whatever order the sort leaves equally long ones in, and they
are mapped to each other by every symmetry of the lattice, so that the renumberings of C118 and C119 exist.
-/
import Verif.Props.Lattice
import Verif.Props.Relabel

namespace Nidn

/-- the places of the images of the entries of a list in a list without repetitions -/
lemma renumber {n : ℕ} {G G' : Fin n → ℤ × ℤ} (hn' : Function.Injective G') (f : ℤ × ℤ → ℤ × ℤ)
    (hf : Function.Injective f) (hm : ∀ i, ∃ j, G j = f (G' i)) : ∃ σ : Fin n ≃ Fin n, ∀ i, G (σ i) = f (G' i) := by
  choose σ hσ using hm
  have hi : Function.Injective σ := fun i j h => hn' (hf (by rw [← hσ, ← hσ, h]))
  exact ⟨Equiv.ofBijective σ (Finite.injective_iff_bijective.1 hi), hσ⟩

lemma get_injective {l : List (ℤ × ℤ)} (h : l.Nodup) : Function.Injective l.get := List.nodup_iff_injective_get.1 h

/-- C118: two sorts of the candidate orders by length, with different orders of equally long ones, lead to the same number of retained orders,
and the retained orders differ only in their numbering. -/
theorem C118_selection (nG : ℕ) (hn : 0 < nG) (Lk1 Lk2 : ℝ × ℝ) (hc : cross2 Lk1 Lk2 ≠ 0) (sorted sorted' : List (ℤ × ℤ))
    (hs : IsSortOf Lk1 Lk2 (candidates nG Lk1 Lk2) sorted) (hs' : IsSortOf Lk1 Lk2 (candidates nG Lk1 Lk2) sorted') :
    ∃ (n : ℕ) (G G' : Fin n → ℤ × ℤ) (σ : Fin n ≃ Fin n), gselCircular nG Lk1 Lk2 sorted = .ok (List.ofFn G, n) ∧
      gselCircular nG Lk1 Lk2 sorted' = .ok (List.ofFn G', n) ∧ ∀ i, G' i = G (σ i) := by
  obtain ⟨sel, h1, -, nd, -, down, -, -⟩ := C14_whole_shells nG hn Lk1 Lk2 hc sorted hs
  obtain ⟨sel', h1', -, nd', -, down', -, -⟩ := C14_whole_shells nG hn Lk1 Lk2 hc sorted' hs'
  have hmap : sorted.map (gl2 Lk1 Lk2) = sorted'.map (gl2 Lk1 Lk2) := by
    refine List.Perm.eq_of_pairwise (le := fun a b => a ≤ b) (fun a b _ _ h h' => le_antisymm h h') ?_ ?_ ((hs.perm.trans hs'.perm.symm).map _)
    · rw [List.pairwise_map]
      exact hs.mono.imp fun {a b} h => by rwa [gl2_eq, gl2_eq]
    · rw [List.pairwise_map]
      exact hs'.mono.imp fun {a b} h => by rwa [gl2_eq, gl2_eq]
  have hlen : sel.length = sel'.length := by
    have e1 := (gsel_shape nG hn Lk1 Lk2 hc sorted hs).2.2
    have e2 := (gsel_shape nG hn Lk1 Lk2 hc sorted' hs').2.2
    rw [h1] at e1
    rw [h1'] at e2
    injection e1 with e1
    injection e2 with e2
    injection e1 with _ e1
    injection e2 with _ e2
    rw [e1, e2, hmap]
  have hsub : ∀ g ∈ sel', g ∈ sel := by
    intro g hg
    by_contra hng
    have hlt : ∀ h ∈ sel, h ∈ sel' ∧ h ≠ g := by
      intro h hh
      refine ⟨down' g hg h ?_, fun e => hng (e ▸ hh)⟩
      by_contra hle
      exact hng (down h hh g (le_of_not_ge hle))
    have : (g :: sel).length ≤ sel'.length := by
      refine List.Subperm.length_le ((List.nodup_cons.2 ⟨hng, nd⟩).subperm fun x hx => ?_)
      rcases List.mem_cons.1 hx with rfl | hx
      · exact hg
      · exact (hlt x hx).1
    simp at this
    omega
  obtain ⟨σ, hσ⟩ := renumber (n := sel.length) (G := sel.get) (G' := fun i => sel'.get (i.cast hlen))
    (fun i j h => by simpa [Fin.ext_iff] using get_injective nd' h) id Function.injective_id
    (fun i => by
      obtain ⟨j, hj⟩ := List.get_of_mem (hsub _ (List.get_mem sel' (i.cast hlen)))
      exact ⟨j, hj⟩)
  refine ⟨sel.length, sel.get, fun i => sel'.get (i.cast hlen), σ, by rw [h1, List.ofFn_get], ?_, fun i => (hσ i).symm⟩
  have e : List.ofFn (fun i : Fin sel.length => sel'.get (i.cast hlen)) = sel' := by
    refine List.ext_get (by simp [hlen]) fun i h h' => ?_
    simp
  rw [h1', e, hlen]

/-- C119: on a rectangular lattice the retained orders are mapped to each other by the flips of the axes, and on a square lattice by the
quarter turn, for every requested number of orders. -/
theorem C119_selection (nG : ℕ) (hn : 0 < nG) (u v : ℝ) (hu : u ≠ 0) (hv : v ≠ 0) (sorted : List (ℤ × ℤ))
    (hs : IsSortOf (u, 0) (0, v) (candidates nG (u, 0) (0, v)) sorted) :
    ∃ (n : ℕ) (G : Fin n → ℤ × ℤ), gselCircular nG (u, 0) (0, v) sorted = .ok (List.ofFn G, n) ∧
      (∃ σ : Fin n ≃ Fin n, ∀ i, G (σ i) = (-(G i).1, (G i).2)) ∧
      (u = v → ∃ σ : Fin n ≃ Fin n, (∀ i, G (σ i) = ((G i).2, -(G i).1)) ∧ ∀ i, G i = (0, 0) → σ i = i) := by
  have hc : cross2 (u, 0) (0, v) ≠ 0 := by simp [cross2, hu, hv]
  obtain ⟨sel, h1, -, nd, -, down, -, -⟩ := C14_whole_shells nG hn (u, 0) (0, v) hc sorted hs
  have key : ∀ f : ℤ × ℤ → ℤ × ℤ, Function.Injective f → (∀ g, lenSq (u, 0) (0, v) (f g) = lenSq (u, 0) (0, v) g) →
      ∃ σ : Fin sel.length ≃ Fin sel.length, ∀ i, sel.get (σ i) = f (sel.get i) := fun f hf hl =>
    renumber (get_injective nd) f hf fun i => by
      obtain ⟨j, hj⟩ := List.get_of_mem (down _ (List.get_mem sel i) (f (sel.get i)) (hl _).le)
      exact ⟨j, hj⟩
  refine ⟨sel.length, sel.get, by rw [h1, List.ofFn_get], key (fun g => (-g.1, g.2)) (fun a b h => ?_) (fun g => ?_), fun e => ?_⟩
  · simp only [Prod.mk.injEq, neg_inj] at h
    exact Prod.ext h.1 h.2
  · simp only [lenSq]; push_cast; ring
  · obtain ⟨σ, hσ⟩ := key (fun g => (g.2, -g.1)) (fun a b h => by
      simp only [Prod.mk.injEq, neg_inj] at h
      exact Prod.ext h.2 h.1) (fun g => by simp only [lenSq, e]; push_cast; ring)
    refine ⟨σ, hσ, fun i h => get_injective nd ?_⟩
    rw [hσ, h]; rfl

/-- Hypotheses of `C118_selection` and `C119_selection`: every request on every rectangular lattice. -/
example (nG : ℕ) (u v : ℝ) : ∃ sorted, IsSortOf (u, 0) (0, v) (candidates nG (u, 0) (0, v)) sorted := by
  classical
  refine ⟨(candidates nG (u, 0) (0, v)).mergeSort (fun g h => decide (lenSq (u, 0) (0, v) g ≤ lenSq (u, 0) (0, v) h)), List.mergeSort_perm _ _, ?_⟩
  have := List.pairwise_mergeSort (le := fun g h => decide (lenSq (u, 0) (0, v) g ≤ lenSq (u, 0) (0, v) h))
    (fun a b c h1 h2 => by simpa using le_trans (by simpa using h1) (by simpa using h2)) (fun a b => by simpa using le_total _ _)
    (candidates nG (u, 0) (0, v))
  exact this.imp fun h => by simpa using h

end Nidn
