/-
C174: without losses an FDTD simulation can be run backwards.
-/
import Verif.Props.FdtdTorus
import Mathlib.Tactic.LinearCombination

namespace Nidn

section
variable {K : Type} [Field K]

/-- What a user does to turn a simulation round: `grid.H *= -1` and one call of `grid.update_H()` (nidn/fdtd/grid.py:306-330). -/
def FGrid.turnRound (g : FGrid K) : FGrid K := FGrid.updateH { g with H := fun p c => -g.H p c }

/-- Specification: no conductivity anywhere, no boundaries other than periodic ones (on axes of at least two planes), and from now on no source puts in anything. -/
structure Lossless (g : FGrid K) (as : List (Fin 3)) : Prop where
  bounds : g.boundaries = as.map FBoundary.periodic
  size : ∀ a ∈ as, 2 ≤ g.n a
  absorb : ∀ p ∈ box g.n, ∀ c, g.absorb p c = 0
  sources : ∀ s ∈ g.sources, ∃ d, s = .soft d ∧ ∀ t, g.time ≤ t → ∀ p c, d t p c = 0

/-- Specification: the first and the last plane of every periodic axis, which are the same place, carry the same fields. -/
def Seamless (g : FGrid K) (as : List (Fin 3)) : Prop :=
  ∀ a ∈ as, ∀ p ∈ box g.n, p a = 0 → ∀ c, g.E p c = g.E (Function.update p a (g.n a - 1)) c ∧ g.H p c = g.H (Function.update p a (g.n a - 1)) c

/-- Specification: two states with the same fields. -/
def SameFields (g r : FGrid K) : Prop := ∀ p ∈ box g.n, ∀ c, r.E p c = g.E p c ∧ r.H p c = g.H p c

/-- Specification: two simulations of the same set-up at possibly different states and times. -/
structure SameSetup (g r : FGrid K) : Prop where
  n : r.n = g.n
  courant : r.courant = g.courant
  invEps : r.invEps = g.invEps
  invMu : r.invMu = g.invMu

omit [Field K] in
lemma SameSetup.symm {g r : FGrid K} (h : SameSetup g r) : SameSetup r g := ⟨h.n.symm, h.courant.symm, h.invEps.symm, h.invMu.symm⟩

omit [Field K] in
lemma SameSetup.trans {g r s : FGrid K} (h : SameSetup g r) (h' : SameSetup r s) : SameSetup g s :=
  ⟨h'.n.trans h.n, h'.courant.trans h.courant, h'.invEps.trans h.invEps, h'.invMu.trans h.invMu⟩

lemma run_setup (g : FGrid K) (k : ℕ) : SameSetup g (g.run k) := ⟨run_n g k, run_courant g k, run_invEps g k, run_invMu g k⟩

lemma dDn_box {n : Pos} {F G : VField K} {s : K} (h : ∀ p ∈ box n, ∀ c, F p c = s * G p c) {p : Pos} (hp : p ∈ box n) (a c : Fin 3) : dDn F a c p = s * dDn G a c p := by
  unfold dDn
  split_ifs
  · rw [h p hp, h _ (dn_mem_box hp), mul_sub]
  · rw [mul_zero]

lemma dUp_box {n : Pos} {F G : VField K} {s : K} (h : ∀ p ∈ box n, ∀ c, F p c = s * G p c) {p : Pos} (hp : p ∈ box n) (a c : Fin 3) : dUp n F a c p = s * dUp n G a c p := by
  unfold dUp
  split_ifs with h1
  · rw [h p hp, h _ (up_mem_box hp h1), mul_sub]
  · rw [mul_zero]

lemma curlH_box {n : Pos} {F G : VField K} {s : K} (h : ∀ p ∈ box n, ∀ c, F p c = s * G p c) {p : Pos} (hp : p ∈ box n) (c : Fin 3) : curlH F p c = s * curlH G p c := by
  fin_cases c <;> simp only [curlH, dDn_box h hp, mul_sub]

lemma curlE_box {n : Pos} {F G : VField K} (h : ∀ p ∈ box n, ∀ c, F p c = G p c) {p : Pos} (hp : p ∈ box n) (c : Fin 3) : curlE n F p c = curlE n G p c := by
  have h' : ∀ p ∈ box n, ∀ c, F p c = 1 * G p c := fun p hp c => by rw [one_mul]; exact h p hp c
  fin_cases c <;> simp only [curlE, dUp_box h' hp, one_mul]

lemma repE_idem {n : Pos} {as : List (Fin 3)} (p : Pos) : repE n as (repE n as p) = repE n as p := by
  funext b
  unfold repE
  by_cases h : b ∈ as <;> simp only [h, true_and, false_and, if_false]
  by_cases h0 : p b = 0
  · simp only [h0, if_true]
    split_ifs <;> rfl
  · simp only [h0, if_false]

lemma repH_idem {n : Pos} {as : List (Fin 3)} (p : Pos) : repH n as (repH n as p) = repH n as p := by
  funext b
  unfold repH
  by_cases h : b ∈ as <;> simp only [h, true_and, false_and, if_false]
  by_cases h0 : p b = n b - 1
  · simp only [h0, if_true]
    split_ifs <;> rfl
  · simp only [h0, if_false]

/-- the seams in the form in which the boundaries use them -/
structure SeamRep (g : FGrid K) (as : List (Fin 3)) : Prop where
  E : ∀ p ∈ box g.n, ∀ c, g.E (repE g.n as p) c = g.E p c
  H : ∀ p ∈ box g.n, ∀ c, g.H (repH g.n as p) c = g.H p c

lemma update_box {n p : Pos} (hp : p ∈ box n) {a : Fin 3} {v : ℕ} (hv : v < n a) : Function.update p a v ∈ box n := by
  rw [mem_box] at hp ⊢
  intro b
  by_cases e : b = a
  · subst e; simpa using hv
  · rw [Function.update_of_ne e]; exact hp b

omit [Field K] in
lemma seam_repE {n : Pos} {F : VField K} : ∀ {as : List (Fin 3)}, (∀ a ∈ as, ∀ p ∈ box n, p a = 0 → ∀ c, F p c = F (Function.update p a (n a - 1)) c) →
    ∀ p ∈ box n, ∀ c, F (repE n as p) c = F p c
  | [], _, p, _, c => by
    have : repE n [] p = p := by funext b; simp [repE]
    rw [this]
  | a :: as, h, p, hp, c => by
    have ih := seam_repE (fun b hb => h b (List.mem_cons_of_mem _ hb)) p hp c
    by_cases ha : a ∈ as
    · have : repE n (a :: as) p = repE n as p := by
        funext b
        unfold repE
        by_cases hb : b = a
        · subst hb; simp [ha]
        · simp [hb]
      rw [this, ih]
    · by_cases h0 : p a = 0
      · have e : repE n (a :: as) p = Function.update (repE n as p) a (n a - 1) := by
          funext b
          by_cases hb : b = a
          · subst hb; simp [repE, h0]
          · rw [Function.update_of_ne hb]; simp [repE, hb]
        rw [e, ← h a List.mem_cons_self (repE n as p) (repE_box as hp) (by simp [repE, ha, h0]) c, ih]
      · have : repE n (a :: as) p = repE n as p := by
          funext b
          unfold repE
          by_cases hb : b = a
          · subst hb; simp [h0]
          · simp [hb]
        rw [this, ih]

omit [Field K] in
lemma seam_repH {n : Pos} {F : VField K} : ∀ {as : List (Fin 3)}, (∀ a ∈ as, ∀ p ∈ box n, p a = 0 → ∀ c, F p c = F (Function.update p a (n a - 1)) c) →
    ∀ p ∈ box n, ∀ c, F (repH n as p) c = F p c
  | [], _, p, _, c => by
    have : repH n [] p = p := by funext b; simp [repH]
    rw [this]
  | a :: as, h, p, hp, c => by
    have ih := seam_repH (fun b hb => h b (List.mem_cons_of_mem _ hb)) p hp c
    by_cases ha : a ∈ as
    · have : repH n (a :: as) p = repH n as p := by
        funext b
        unfold repH
        by_cases hb : b = a
        · subst hb; simp [ha]
        · simp [hb]
      rw [this, ih]
    · by_cases h0 : p a = n a - 1
      · have hpa := mem_box.1 hp a
        have e : repH n (a :: as) p = Function.update (repH n as p) a 0 := by
          funext b
          by_cases hb : b = a
          · subst hb; simp [repH, h0]
          · rw [Function.update_of_ne hb]; simp [repH, hb]
        have e' : Function.update (Function.update (repH n as p) a 0) a (n a - 1) = repH n as p := by
          funext b
          by_cases hb : b = a
          · subst hb; simp [repH, ha, h0]
          · rw [Function.update_of_ne hb, Function.update_of_ne hb]
        rw [e, h a List.mem_cons_self _ (update_box (repH_box as hp) (by omega)) (by simp) c, e', ih]
      · have : repH n (a :: as) p = repH n as p := by
          funext b
          unfold repH
          by_cases hb : b = a
          · subst hb; simp [h0]
          · simp [hb]
        rw [this, ih]

omit [Field K] in
lemma Seamless.rep {g : FGrid K} {as : List (Fin 3)} (h : Seamless g as) : SeamRep g as :=
  ⟨seam_repE fun a ha p hp h0 c => (h a ha p hp h0 c).1, seam_repH fun a ha p hp h0 c => (h a ha p hp h0 c).2⟩

lemma Lossless.soft {g : FGrid K} {as : List (Fin 3)} (h : Lossless g as) : AllSoft g.sources := fun s hs => by
  obtain ⟨d, e, -⟩ := h.sources s hs
  exact ⟨d, e⟩

lemma Lossless.drive {g : FGrid K} {as : List (Fin 3)} (h : Lossless g as) (p : Pos) (c : Fin 3) : totalDrive g.sources g.time p c = 0 := by
  unfold totalDrive
  refine List.sum_eq_zero fun x hx => ?_
  obtain ⟨s, hs, rfl⟩ := List.mem_map.1 hx
  obtain ⟨d, rfl, h0⟩ := h.sources s hs
  exact h0 _ le_rfl p c

lemma Lossless.newE {g : FGrid K} {as : List (Fin 3)} (h : Lossless g as) {p : Pos} (hp : p ∈ box g.n) (c : Fin 3) :
    g.newE p c = g.E (repE g.n as p) c + g.courant * g.invEps (repE g.n as p) c * curlH g.H (repE g.n as p) c := by
  rw [newE_periodic g as h.bounds h.size h.soft, h.drive, add_zero, bulkE, h.absorb _ (repE_box as hp)]
  simp

/-- the magnetic update for given fields -/
lemma Lossless.newH {g : FGrid K} {as : List (Fin 3)} (h : Lossless g as) (E H : VField K) (p : Pos) (c : Fin 3) :
    FGrid.newH { g with E := E, H := H } p c = H (repH g.n as p) c - g.courant * g.invMu (repH g.n as p) c * curlE g.n E (repH g.n as p) c :=
  newH_periodic { g with E := E, H := H } as h.bounds h.size h.soft p c

lemma Lossless.step_H {g : FGrid K} {as : List (Fin 3)} (h : Lossless g as) (p : Pos) (c : Fin 3) :
    g.step.H p c = g.H (repH g.n as p) c - g.courant * g.invMu (repH g.n as p) c * curlE g.n g.newE (repH g.n as p) c := by
  refine newH_periodic g.updateE as ?_ h.size h.soft p c
  show g.boundaries.map _ = _
  rw [h.bounds, (periodic_phased _ _ as).1]

lemma Lossless.turn_H {g : FGrid K} {as : List (Fin 3)} (h : Lossless g as) (p : Pos) (c : Fin 3) :
    g.turnRound.H p c = -g.H (repH g.n as p) c - g.courant * g.invMu (repH g.n as p) c * curlE g.n g.E (repH g.n as p) c :=
  h.newH g.E (fun p c => -g.H p c) p c

lemma Lossless.run {g : FGrid K} {as : List (Fin 3)} (h : Lossless g as) (k : ℕ) : Lossless (g.run k) as := by
  refine ⟨run_boundaries_periodic g as h.bounds k, ?_, ?_, ?_⟩
  · rw [run_n]; exact h.size
  · rw [run_n, run_absorb]; exact h.absorb
  · rw [run_sources, run_time]
    intro s hs
    obtain ⟨d, e, h0⟩ := h.sources s hs
    exact ⟨d, e, fun t ht => h0 t (by omega)⟩

lemma Lossless.turnRound {g : FGrid K} {as : List (Fin 3)} (h : Lossless g as) : Lossless g.turnRound as := by
  refine ⟨?_, h.size, h.absorb, h.sources⟩
  show g.boundaries.map _ = _
  rw [h.bounds, (periodic_phased _ _ as).2]

lemma SeamRep.step {g : FGrid K} {as : List (Fin 3)} (h : Lossless g as) : SeamRep g.step as := by
  refine ⟨fun p hp c => ?_, fun p hp c => ?_⟩
  · show g.newE (repE g.n as p) c = g.newE p c
    rw [h.newE hp, h.newE (repE_box as hp), repE_idem]
  · show g.step.H (repH g.n as p) c = g.step.H p c
    rw [h.step_H, h.step_H, repH_idem]

lemma SeamRep.run {g : FGrid K} {as : List (Fin 3)} (h : Lossless g as) (hs : SeamRep g as) : ∀ k, SeamRep (g.run k) as
  | 0 => hs
  | k + 1 => SeamRep.step (h.run k)

/-- turning round after a step gives the magnetic field before the step -/
lemma turn_step {g : FGrid K} {as : List (Fin 3)} (h : Lossless g as) (hs : SeamRep g as) {p : Pos} (hp : p ∈ box g.n) (c : Fin 3) :
    g.step.turnRound.H p c = -g.H p c := by
  have e := Lossless.turn_H (h.run 1) p c
  change g.step.turnRound.H p c = -g.step.H (repH g.n as p) c - g.courant * g.invMu (repH g.n as p) c * curlE g.n g.newE (repH g.n as p) c at e
  rw [e, h.step_H, repH_idem, ← hs.H p hp c]
  ring

/-- a simulation turned round goes from the state after a step to the state before it -/
lemma back_step {g r : FGrid K} {as : List (Fin 3)} (h : Lossless g as) (hs : SeamRep g as) (hr : Lossless r as) (hg : SameSetup g r) (hf : SameFields g.step.turnRound r) :
    SameFields g.turnRound r.step := by
  have hE : ∀ p ∈ box g.n, ∀ c, r.E p c = g.newE p c := fun p hp c => (hf p hp c).1
  have hH : ∀ p ∈ box g.n, ∀ c, r.H p c = -1 * g.H p c := fun p hp c => by rw [(hf p hp c).2, turn_step h hs hp]; ring
  have key : ∀ p ∈ box g.n, ∀ c, r.newE p c = g.E p c := by
    intro p hp c
    have hp' := repE_box as hp
    rw [hr.newE (by rw [hg.n]; exact hp), hg.n, hg.courant, hg.invEps, hE _ hp', curlH_box hH hp', h.newE hp', repE_idem, ← hs.E p hp c]
    ring
  intro p hp c
  change p ∈ box g.n at hp
  refine ⟨key p hp c, ?_⟩
  have hp' := repH_box as hp
  rw [hr.step_H, h.turn_H, hg.n, hg.courant, hg.invMu, hH _ hp', curlE_box key hp']
  ring

lemma back_run {g r : FGrid K} {as : List (Fin 3)} (h : Lossless g as) (hs : SeamRep g as) (hr : Lossless r as) (hg : SameSetup g r) (k : ℕ) :
    ∀ j, SameFields (g.run (k + j)).turnRound r → SameFields (g.run k).turnRound (r.run j) := by
  intro j
  induction j generalizing k with
  | zero => exact fun hf => hf
  | succ j ih =>
    intro hf
    have e : k + (j + 1) = (k + 1) + j := by omega
    rw [e] at hf
    exact back_step (h.run k) (hs.run h k) (hr.run j) ((run_setup g k).symm.trans (hg.trans (run_setup r j))) (ih (k + 1) hf)

lemma turn_setup (g : FGrid K) : SameSetup g g.turnRound := ⟨rfl, rfl, rfl, rfl⟩

lemma turn_turn {g r : FGrid K} {as : List (Fin 3)} (h : Lossless g as) (hs : SeamRep g as) (hr : Lossless r as) (hg : SameSetup g r) (hf : SameFields g.turnRound r) :
    SameFields g r.turnRound := by
  have hE : ∀ p ∈ box g.n, ∀ c, r.E p c = g.E p c := fun p hp c => (hf p hp c).1
  intro p hp c
  refine ⟨hE p hp c, ?_⟩
  have hp' := repH_box as hp
  rw [hr.turn_H, hg.n, hg.courant, hg.invMu, curlE_box hE hp', (hf _ hp' c).2, h.turn_H, repH_idem, ← hs.H p hp c]
  ring

omit [Field K] in
lemma sameFields_refl (g : FGrid K) : SameFields g g := fun _ _ _ => ⟨rfl, rfl⟩

/-- **C174 (backwards).** Run a lossless grid for `k + j` steps, turn it round and run it for `j` steps: the electric field is that after `k` steps, everywhere. Turning it round once more gives the magnetic field after `k` steps too. -/
theorem C174_backwards (g : FGrid K) (as : List (Fin 3)) (h : Lossless g as) (hs : Seamless g as) (k j : ℕ) :
    SameFields (g.run k) ((g.run (k + j)).turnRound.run j).turnRound := by
  refine turn_turn (h.run k) (hs.rep.run h k) ((h.run (k + j)).turnRound.run j) ?_ ?_
  · exact (run_setup g k).symm.trans ((run_setup g (k + j)).trans ((turn_setup _).trans (run_setup _ j)))
  · exact back_run h hs.rep (h.run (k + j)).turnRound ((run_setup g (k + j)).trans ⟨rfl, rfl, rfl, rfl⟩) k j (sameFields_refl _)

/-- **C174 (nothing is lost).** Two states of a lossless grid that have the same fields after some steps had the same fields before: no two different states become the same. -/
theorem C174_distinct (g g' : FGrid K) (as : List (Fin 3)) (h : Lossless g as) (h' : Lossless g' as) (hs : Seamless g as) (hs' : Seamless g' as) (hg : SameSetup g g') (k : ℕ)
    (e : SameFields (g.run k) (g'.run k)) : SameFields g g' := by
  have b := C174_backwards g as h hs 0 k
  have hset : SameSetup g' (g.run k).turnRound := hg.symm.trans ((run_setup g k).trans ⟨rfl, rfl, rfl, rfl⟩)
  have start : SameFields (g'.run k).turnRound (g.run k).turnRound := by
    intro p hp c
    have hn : (g'.run k).n = (g.run k).n := by rw [run_n, run_n, hg.n]
    change p ∈ box (g'.run k).n at hp
    rw [hn] at hp
    refine ⟨((e p hp c).1).symm, ?_⟩
    have hp' := repH_box as hp
    rw [(h.run k).turn_H, (h'.run k).turn_H, hn, run_courant, run_courant, run_invMu, run_invMu, hg.courant, hg.invMu, (e _ hp' c).2, curlE_box (fun q hq d => (e q hq d).1) hp']
  have b' : SameFields g' ((g.run k).turnRound.run k).turnRound := by
    refine turn_turn h' hs'.rep ((h.run k).turnRound.run k) (hset.trans (run_setup _ k)) ?_
    refine back_run h' hs'.rep (h.run k).turnRound hset 0 k ?_
    rw [Nat.zero_add]
    exact start
  intro p hp c
  have x := b p hp c
  have y := b' p (by rw [hg.n]; exact hp) c
  rw [Nat.zero_add] at x
  exact ⟨y.1.symm.trans x.1, y.2.symm.trans x.2⟩

end

/-- a pulse in the middle of a ring of five planes, with a material of permittivity 4 in one of them -/
def pulseRing : FGrid ℚ :=
  { n := ![5, 1, 1], courant := 1 / 2, invEps := fun p _ => if p 0 = 3 then 1 / 4 else 1, invMu := fun _ _ => 1, absorb := fun _ _ => 0,
    E := fun p c => if p 0 = 2 ∧ c = 2 then 1 else 0, H := fun _ _ => 0, time := 0, boundaries := [.periodic 0], sources := [], detectors := [] }

/-- the hypotheses hold of a pulse in a ring; it spreads over the ring, and comes together again after it has been turned round -/
example : Lossless pulseRing [0] ∧ Seamless pulseRing [0] ∧ (pulseRing.run 3).E ![4, 0, 0] 2 ≠ 0 ∧ (pulseRing.run 3).E ![2, 0, 0] 2 ≠ 1 ∧
    ((pulseRing.run 3).turnRound.run 3).E ![2, 0, 0] 2 = 1 ∧ ((pulseRing.run 3).turnRound.run 3).E ![4, 0, 0] 2 = 0 := by
  refine ⟨⟨rfl, ?_, fun _ _ _ => rfl, fun s hs => absurd hs List.not_mem_nil⟩, ?_, by decide +kernel, by decide +kernel, by decide +kernel, by decide +kernel⟩
  · intro a ha
    rw [List.mem_singleton] at ha
    subst ha
    decide
  · intro a ha p hp h0 c
    rw [List.mem_singleton] at ha
    subst ha
    refine ⟨?_, rfl⟩
    simp [pulseRing, h0]

/-- C174: losses are needed to be excluded: with a conductivity the field does not come back. -/
theorem C174_losses : ∃ g : FGrid ℚ, g.boundaries = [] ∧ g.sources = [] ∧ (∀ p c, 0 < g.absorb p c) ∧ g.n = ![2, 1, 1] ∧ g.E 0 2 = 1 ∧ (g.run 1).E 0 2 = 1 / 2 ∧
    ((g.run 1).turnRound.run 1).turnRound.E 0 2 = 1 / 4 :=
  ⟨{ n := ![2, 1, 1], courant := 1 / 2, invEps := fun _ _ => 1, invMu := fun _ _ => 1, absorb := fun _ _ => 1 / 3,
     E := fun _ c => if c = 2 then 1 else 0, H := fun _ _ => 0, time := 0, boundaries := [], sources := [], detectors := [] },
    rfl, rfl, fun _ _ => by norm_num, rfl, rfl, by decide +kernel, by decide +kernel⟩

end Nidn
