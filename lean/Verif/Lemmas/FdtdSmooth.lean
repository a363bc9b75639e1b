/-
The fields of an FDTD simulation are smooth functions of parameters the materials depend on smoothly.
-/
import Mathlib.Analysis.Calculus.ContDiff.Operations
import Verif.Props.FdtdRun

set_option linter.unusedSectionVars false

namespace Nidn

open Topology

section

variable {X : Type} [NormedAddCommGroup X] [NormedSpace ℝ X] {k : WithTop ℕ∞} {x0 : X}

/-- every entry of the field is smooth -/
def SmoothF (k : WithTop ℕ∞) (x0 : X) (F : X → VField ℝ) : Prop := ∀ p c, ContDiffAt ℝ k (fun x => F x p c) x0

lemma SmoothF.at {F : X → VField ℝ} (h : SmoothF k x0 F) (p : Pos) (c : Fin 3) : ContDiffAt ℝ k (fun x => F x p c) x0 := h p c

variable {F G : X → VField ℝ}

lemma smoothF_const (F : VField ℝ) : SmoothF k x0 fun _ => F := fun _ _ => contDiffAt_const

lemma smoothF_dUp (h : SmoothF k x0 F) (n : Pos) (a c : Fin 3) (p : Pos) : ContDiffAt ℝ k (fun x => dUp n (F x) a c p) x0 := by
  unfold dUp
  split_ifs
  · exact (h.at _ _).sub (h.at _ _)
  · exact contDiffAt_const

lemma smoothF_dDn (h : SmoothF k x0 F) (a c : Fin 3) (p : Pos) : ContDiffAt ℝ k (fun x => dDn (F x) a c p) x0 := by
  unfold dDn
  split_ifs
  · exact (h.at _ _).sub (h.at _ _)
  · exact contDiffAt_const

lemma smoothF_curlE (h : SmoothF k x0 F) (n : Pos) : SmoothF k x0 fun x => curlE n (F x) := by
  intro p c
  fin_cases c <;> exact (smoothF_dUp h _ _ _ _).sub (smoothF_dUp h _ _ _ _)

lemma smoothF_curlH (h : SmoothF k x0 F) : SmoothF k x0 fun x => curlH (F x) := by
  intro p c
  fin_cases c <;> exact (smoothF_dDn h _ _ _).sub (smoothF_dDn h _ _ _)

/-- a boundary that is the same for all parameters, up to the memories of an absorbing layer, which are smooth -/
def BSmooth (k : WithTop ℕ∞) (x0 : X) (b : X → FBoundary ℝ) : Prop :=
  (∃ a, ∀ x, b x = .periodic a) ∨
  ∃ (P0 : Pml ℝ) (P : X → Pml ℝ), (∀ x, b x = .pml (P x)) ∧
    (∀ x, (P x).axis = P0.axis ∧ (P x).high = P0.high ∧ (P x).thick = P0.thick ∧ (P x).bE = P0.bE ∧ (P x).cE = P0.cE ∧ (P x).bH = P0.bH ∧
      (P x).cH = P0.cH) ∧
    (∀ m, SmoothF k x0 fun x => (P x).psiE m) ∧ (∀ m, SmoothF k x0 fun x => (P x).psiH m) ∧
    SmoothF k x0 (fun x => (P x).phiE) ∧ SmoothF k x0 fun x => (P x).phiH

lemma smoothF_phi {psi : X → Fin 3 → VField ℝ} (h : ∀ m, SmoothF k x0 fun x => psi x m) : SmoothF k x0 fun x => phiOf (psi x) := by
  intro q c
  fin_cases c <;> exact ((h _).at _ _).sub ((h _).at _ _)

lemma bsmooth_phaseE {n : Pos} {b : X → FBoundary ℝ} (hb : BSmooth k x0 b) (hF : SmoothF k x0 F) : BSmooth k x0 fun x => (b x).updatePhiE n (F x) := by
  rcases hb with ⟨a, ha⟩ | ⟨P0, P, hP, hs, h1, h2, h3, h4⟩
  · exact Or.inl ⟨a, fun x => by simp only [ha x]; rfl⟩
  · have hpsi : ∀ m, SmoothF k x0 fun x => psiENew n (F x) (P x) m := by
      intro m q d
      have hv : SmoothF k x0 fun x => P0.view n (F x) := fun q d => hF _ d
      unfold psiENew
      rcases hpp : psiPartner m d with _ | f
      · have e : (fun x => (P x).psiE m q d * (P x).bE q d) = fun x => (P x).psiE m q d * P0.bE q d := by
          funext x; rw [(hs x).2.2.2.1]
        simp only [hpp]
        rw [e]
        exact ((h1 m).at q d).mul contDiffAt_const
      · have e : (fun x => (P x).psiE m q d * (P x).bE q d + dDn ((P x).view n (F x)) d f q * (P x).cE q d) =
            fun x => (P x).psiE m q d * P0.bE q d + dDn (P0.view n (F x)) d f q * P0.cE q d := by
          funext x
          obtain ⟨e1, e2, e3, e4, e5, -, -⟩ := hs x
          rw [view_eq e1 e2 e3, e4, e5]
        simp only [hpp]
        rw [e]
        exact (((h1 m).at q d).mul contDiffAt_const).add ((smoothF_dDn hv d f q).mul contDiffAt_const)
    exact Or.inr ⟨P0, fun x => (P x).updatePhiE n (F x), fun x => by simp only [hP x]; rfl, hs, hpsi, h2, smoothF_phi hpsi, h4⟩

lemma bsmooth_phaseH {n : Pos} {b : X → FBoundary ℝ} (hb : BSmooth k x0 b) (hF : SmoothF k x0 F) : BSmooth k x0 fun x => (b x).updatePhiH n (F x) := by
  rcases hb with ⟨a, ha⟩ | ⟨P0, P, hP, hs, h1, h2, h3, h4⟩
  · exact Or.inl ⟨a, fun x => by simp only [ha x]; rfl⟩
  · have hpsi : ∀ m, SmoothF k x0 fun x => psiHNew n (F x) (P x) m := by
      intro m q d
      have hv : SmoothF k x0 fun x => P0.view n (F x) := fun q d => hF _ d
      unfold psiHNew
      rcases hpp : psiPartner m d with _ | f
      · have e : (fun x => (P x).psiH m q d * (P x).bH q d) = fun x => (P x).psiH m q d * P0.bH q d := by
          funext x; rw [(hs x).2.2.2.2.2.1]
        simp only [hpp]
        rw [e]
        exact ((h2 m).at q d).mul contDiffAt_const
      · have e : (fun x => (P x).psiH m q d * (P x).bH q d + dUp ((P x).shape n) ((P x).view n (F x)) d f q * (P x).cH q d) =
            fun x => (P x).psiH m q d * P0.bH q d + dUp (P0.shape n) (P0.view n (F x)) d f q * P0.cH q d := by
          funext x
          obtain ⟨e1, e2, e3, -, -, e4, e5⟩ := hs x
          have hsh : (P x).shape n = P0.shape n := by unfold Pml.shape; rw [e1, e3]
          rw [view_eq e1 e2 e3, hsh, e4, e5]
        simp only [hpp]
        rw [e]
        exact (((h2 m).at q d).mul contDiffAt_const).add ((smoothF_dUp hv _ d f q).mul contDiffAt_const)
    exact Or.inr ⟨P0, fun x => (P x).updatePhiH n (F x), fun x => by simp only [hP x]; rfl, hs, h1, hpsi, h3, smoothF_phi hpsi⟩

lemma smoothF_boundaryE (n : Pos) (co : ℝ) {ie : X → VField ℝ} (hie : SmoothF k x0 ie) {b : X → FBoundary ℝ} (hb : BSmooth k x0 b) (hF : SmoothF k x0 F) :
    SmoothF k x0 fun x => (b x).updateE n co (ie x) (F x) := by
  rcases hb with ⟨a, ha⟩ | ⟨P0, P, hP, hs, -, -, h3, -⟩
  · intro p c
    simp only [ha, FBoundary.updateE, periodicE]
    split_ifs <;> exact hF.at _ c
  · intro p c
    have e : (fun x => (b x).updateE n co (ie x) (F x) p c) =
        fun x => if P0.inside n p then F x p c + co * ie x p c * ((P x).phiE (P0.toLocal n p) c + pmlTiny) else F x p c := by
      funext x
      obtain ⟨h1, h2, h3, -⟩ := hs x
      have hin : (P x).inside n p ↔ P0.inside n p := by simp only [Pml.inside, Pml.offset, h1, h2, h3]
      have hlo : (P x).toLocal n p = P0.toLocal n p := by simp only [Pml.toLocal, Pml.offset, h1, h2, h3]
      rw [hP x]
      show Pml.updateE _ _ _ _ _ _ _ = _
      unfold Pml.updateE
      rw [hlo]
      by_cases h : P0.inside n p
      · rw [if_pos h, if_pos (hin.mpr h)]
      · rw [if_neg h, if_neg (mt hin.mp h)]
    simp only [e]
    split_ifs
    · exact (hF.at p c).add ((contDiffAt_const.mul (hie.at p c)).mul ((h3.at _ c).add contDiffAt_const))
    · exact hF.at p c

lemma smoothF_boundaryH (n : Pos) (co : ℝ) {im : X → VField ℝ} (him : SmoothF k x0 im) {b : X → FBoundary ℝ} (hb : BSmooth k x0 b) (hF : SmoothF k x0 F) :
    SmoothF k x0 fun x => (b x).updateH n co (im x) (F x) := by
  rcases hb with ⟨a, ha⟩ | ⟨P0, P, hP, hs, -, -, -, h4⟩
  · intro p c
    simp only [ha, FBoundary.updateH, periodicH]
    split_ifs <;> exact hF.at _ c
  · intro p c
    have e : (fun x => (b x).updateH n co (im x) (F x) p c) =
        fun x => if P0.inside n p then F x p c - co * im x p c * (P x).phiH (P0.toLocal n p) c else F x p c := by
      funext x
      obtain ⟨h1, h2, h3, -⟩ := hs x
      have hin : (P x).inside n p ↔ P0.inside n p := by simp only [Pml.inside, Pml.offset, h1, h2, h3]
      have hlo : (P x).toLocal n p = P0.toLocal n p := by simp only [Pml.toLocal, Pml.offset, h1, h2, h3]
      rw [hP x]
      show Pml.updateH _ _ _ _ _ _ _ = _
      unfold Pml.updateH
      rw [hlo]
      by_cases h : P0.inside n p
      · rw [if_pos h, if_pos (hin.mpr h)]
      · rw [if_neg h, if_neg (mt hin.mp h)]
    simp only [e]
    split_ifs
    · exact (hF.at p c).sub ((contDiffAt_const.mul (him.at p c)).mul (h4.at _ c))
    · exact hF.at p c

lemma smoothF_boundariesE (n : Pos) (co : ℝ) {ie : X → VField ℝ} (hie : SmoothF k x0 ie) : ∀ (bs : List (X → FBoundary ℝ)) (F : X → VField ℝ), SmoothF k x0 F →
    (∀ b ∈ bs, BSmooth k x0 b) → SmoothF k x0 fun x => applyBoundariesE n co (ie x) (bs.map fun b => b x) (F x) := by
  intro bs
  induction bs with
  | nil => intro F hF _; exact hF
  | cons b bs ih =>
    intro F hF h
    exact ih _ (smoothF_boundaryE n co hie (h b List.mem_cons_self) hF) fun b' hb' => h b' (List.mem_cons_of_mem _ hb')

lemma smoothF_boundariesH (n : Pos) (co : ℝ) {im : X → VField ℝ} (him : SmoothF k x0 im) : ∀ (bs : List (X → FBoundary ℝ)) (F : X → VField ℝ), SmoothF k x0 F →
    (∀ b ∈ bs, BSmooth k x0 b) → SmoothF k x0 fun x => applyBoundariesH n co (im x) (bs.map fun b => b x) (F x) := by
  intro bs
  induction bs with
  | nil => intro F hF _; exact hF
  | cons b bs ih =>
    intro F hF h
    exact ih _ (smoothF_boundaryH n co him (h b List.mem_cons_self) hF) fun b' hb' => h b' (List.mem_cons_of_mem _ hb')

/-- a source whose drive depends smoothly on the parameters -/
def SSmooth (k : WithTop ℕ∞) (x0 : X) (s : X → FSource ℝ) : Prop :=
  (∃ d : X → ℕ → VField ℝ, (∀ x, s x = .soft (d x)) ∧ ∀ t, SmoothF k x0 fun x => d x t) ∨
  ∃ cells epol hpol, ∃ v : X → ℕ → ℝ, (∀ x, s x = .plane cells epol hpol (v x)) ∧ ∀ t, ContDiffAt ℝ k (fun x => v x t) x0

lemma smoothF_sourcesE (t : ℕ) : ∀ (ss : List (X → FSource ℝ)) (F : X → VField ℝ), SmoothF k x0 F → (∀ s ∈ ss, SSmooth k x0 s) →
    SmoothF k x0 fun x => applySourcesE t (ss.map fun s => s x) (F x) := by
  intro ss
  induction ss with
  | nil => intro F hF _; exact hF
  | cons s ss ih =>
    intro F hF h
    refine ih (fun x => (s x).updateE t (F x)) ?_ fun s' hs' => h s' (List.mem_cons_of_mem _ hs')
    rcases h s List.mem_cons_self with ⟨d, hd, hv⟩ | ⟨cells, ep, hp, v, hs, hv⟩
    · intro p c
      simp only [hd, FSource.updateE]
      exact (hF.at p c).add ((hv t).at p c)
    · intro p c
      simp only [hs, FSource.updateE]
      split_ifs
      · exact hv t
      · exact hF.at p c

lemma smoothF_sourcesH (t : ℕ) : ∀ (ss : List (X → FSource ℝ)) (F : X → VField ℝ), SmoothF k x0 F → (∀ s ∈ ss, SSmooth k x0 s) →
    SmoothF k x0 fun x => applySourcesH t (ss.map fun s => s x) (F x) := by
  intro ss
  induction ss with
  | nil => intro F hF _; exact hF
  | cons s ss ih =>
    intro F hF h
    refine ih (fun x => (s x).updateH t (F x)) ?_ fun s' hs' => h s' (List.mem_cons_of_mem _ hs')
    rcases h s List.mem_cons_self with ⟨d, hd, hv⟩ | ⟨cells, ep, hp, v, hs, hv⟩
    · intro p c
      simp only [hd, FSource.updateH]
      exact hF.at p c
    · intro p c
      simp only [hs, FSource.updateH]
      split_ifs
      · exact hv t
      · exact hF.at p c

/-- A family of grids that differ in materials, fields and what drives them, all smooth in the parameters; no material is perfectly amplifying (`absorption_factor` is not -1). -/
structure GSmooth (k : WithTop ℕ∞) (x0 : X) (g : X → FGrid ℝ) : Prop where
  n : ∀ x, (g x).n = (g x0).n
  courant : ∀ x, (g x).courant = (g x0).courant
  time : ∀ x, (g x).time = (g x0).time
  invEps : SmoothF k x0 fun x => (g x).invEps
  invMu : SmoothF k x0 fun x => (g x).invMu
  absorb : SmoothF k x0 fun x => (g x).absorb
  absorb_ne : ∀ p c, 1 + (g x0).absorb p c ≠ 0
  E : SmoothF k x0 fun x => (g x).E
  H : SmoothF k x0 fun x => (g x).H
  bounds : ∃ bs : List (X → FBoundary ℝ), (∀ x, (g x).boundaries = bs.map fun b => b x) ∧ ∀ b ∈ bs, BSmooth k x0 b
  srcs : ∃ ss : List (X → FSource ℝ), (∀ x, (g x).sources = ss.map fun s => s x) ∧ ∀ s ∈ ss, SSmooth k x0 s

lemma gsmooth_updateE {g : X → FGrid ℝ} (h : GSmooth k x0 g) : GSmooth k x0 fun x => (g x).updateE := by
  obtain ⟨bs, hbs, hb⟩ := h.bounds
  obtain ⟨ss, hss, hs⟩ := h.srcs
  have hph : ∀ x, (g x).phasedE = (bs.map fun b => fun x => (b x).updatePhiE (g x0).n ((g x).H)).map fun b => b x := by
    intro x
    rw [FGrid.phasedE, hbs x, h.n x, List.map_map, List.map_map]
    rfl
  have hall : ∀ b ∈ bs.map (fun b => fun x => (b x).updatePhiE (g x0).n ((g x).H)), BSmooth k x0 b := by
    intro b hb'
    rw [List.mem_map] at hb'
    obtain ⟨b0, hb0, rfl⟩ := hb'
    exact bsmooth_phaseE (hb b0 hb0) h.H
  have hbulk : SmoothF k x0 fun x => bulkE (g x) := by
    intro p c
    unfold bulkE
    have hone : ContDiffAt ℝ k (fun x => 1 + (g x).absorb p c) x0 := contDiffAt_const.add (h.absorb.at p c)
    simp only [h.courant]
    exact ((h.E.at p c).mul ((contDiffAt_const.sub (h.absorb.at p c)).div hone (h.absorb_ne p c))).add
      ((((contDiffAt_const.mul (h.invEps.at p c)).mul ((smoothF_curlH h.H).at p c))).div hone (h.absorb_ne p c))
  refine ⟨h.n, h.courant, h.time, h.invEps, h.invMu, h.absorb, h.absorb_ne, ?_, h.H, ⟨_, hph, hall⟩, h.srcs⟩
  have := smoothF_sourcesE (g x0).time ss _ (smoothF_boundariesE (g x0).n (g x0).courant h.invEps _ _ hbulk hall) hs
  have e : (fun x => (g x).updateE.E) = fun x => applySourcesE (g x0).time (ss.map fun s => s x)
      (applyBoundariesE (g x0).n (g x0).courant (g x).invEps ((bs.map fun b => fun x => (b x).updatePhiE (g x0).n ((g x).H)).map fun b => b x) (bulkE (g x))) := by
    funext x
    show (g x).newE = _
    rw [FGrid.newE, hph x, h.time x, hss x, h.n x, h.courant x]
  rw [e]; exact this

lemma gsmooth_updateH {g : X → FGrid ℝ} (h : GSmooth k x0 g) : GSmooth k x0 fun x => (g x).updateH := by
  obtain ⟨bs, hbs, hb⟩ := h.bounds
  obtain ⟨ss, hss, hs⟩ := h.srcs
  have hph : ∀ x, (g x).phasedH = (bs.map fun b => fun x => (b x).updatePhiH (g x0).n ((g x).E)).map fun b => b x := by
    intro x
    rw [FGrid.phasedH, hbs x, h.n x, List.map_map, List.map_map]
    rfl
  have hall : ∀ b ∈ bs.map (fun b => fun x => (b x).updatePhiH (g x0).n ((g x).E)), BSmooth k x0 b := by
    intro b hb'
    rw [List.mem_map] at hb'
    obtain ⟨b0, hb0, rfl⟩ := hb'
    exact bsmooth_phaseH (hb b0 hb0) h.E
  have hbulk : SmoothF k x0 fun x => bulkH (g x) := by
    intro p c
    unfold bulkH
    simp only [h.courant, h.n]
    exact (h.H.at p c).sub ((contDiffAt_const.mul (h.invMu.at p c)).mul ((smoothF_curlE h.E _).at p c))
  refine ⟨h.n, h.courant, h.time, h.invEps, h.invMu, h.absorb, h.absorb_ne, h.E, ?_, ⟨_, hph, hall⟩, h.srcs⟩
  have := smoothF_sourcesH (g x0).time ss _ (smoothF_boundariesH (g x0).n (g x0).courant h.invMu _ _ hbulk hall) hs
  have e : (fun x => (g x).updateH.H) = fun x => applySourcesH (g x0).time (ss.map fun s => s x)
      (applyBoundariesH (g x0).n (g x0).courant (g x).invMu ((bs.map fun b => fun x => (b x).updatePhiH (g x0).n ((g x).E)).map fun b => b x) (bulkH (g x))) := by
    funext x
    show (g x).newH = _
    rw [FGrid.newH, hph x, h.time x, hss x, h.n x, h.courant x]
  rw [e]; exact this

lemma gsmooth_step {g : X → FGrid ℝ} (h : GSmooth k x0 g) : GSmooth k x0 fun x => (g x).step := by
  have h1 := gsmooth_updateH (gsmooth_updateE h)
  exact ⟨h1.n, h1.courant, fun x => by
    show (g x).updateE.updateH.time + 1 = (g x0).updateE.updateH.time + 1
    rw [h1.time x], h1.invEps, h1.invMu, h1.absorb, h1.absorb_ne, h1.E, h1.H, h1.bounds, h1.srcs⟩

lemma gsmooth_run {g : X → FGrid ℝ} (h : GSmooth k x0 g) (j : ℕ) : GSmooth k x0 fun x => (g x).run j := by
  induction j with
  | zero => exact h
  | succ j ih => exact gsmooth_step ih

end

end Nidn
