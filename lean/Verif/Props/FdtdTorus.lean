/-
C48: periodic boundaries make the grid a torus.
-/
import Verif.Spec.Torus
import Verif.Lemmas.FdtdField
import Mathlib.Tactic.NormNum

set_option linter.unusedSectionVars false

namespace Nidn

section
variable {K : Type} [Field K]

/-- the index that `E[0] = E[-1]` on the listed axes reads from -/
def repE (n : Pos) (as : List (Fin 3)) (p : Pos) : Pos := fun b => if b ∈ as ∧ p b = 0 then n b - 1 else p b

/-- the index that `H[-1] = H[0]` on the listed axes reads from -/
def repH (n : Pos) (as : List (Fin 3)) (p : Pos) : Pos := fun b => if b ∈ as ∧ p b = n b - 1 then 0 else p b

lemma applyPeriodicE (n : Pos) (co : K) (ie : VField K) : ∀ (as : List (Fin 3)) (E : VField K) (p : Pos),
    (∀ a ∈ as, 2 ≤ n a) →
    applyBoundariesE n co ie (as.map FBoundary.periodic) E p = E (repE n as p) := by
  intro as
  induction as with
  | nil =>
    intro E p _
    have : repE n [] p = p := by funext b; simp [repE]
    rw [this]; rfl
  | cons a as ih =>
    intro E p h
    show applyBoundariesE n co ie (as.map FBoundary.periodic) (periodicE n a E) p = _
    rw [ih _ _ (fun b hb => h b (List.mem_cons_of_mem _ hb))]
    have ha := h a List.mem_cons_self
    funext c
    simp only [periodicE]
    have e : repE n (a :: as) p = if repE n as p a = 0 then Function.update (repE n as p) a (n a - 1) else repE n as p := by
      funext b
      by_cases hb : b = a
      · subst hb
        by_cases h0 : p b = 0
        · by_cases hm : b ∈ as
          · have hne : n b - 1 ≠ 0 := by omega
            simp [repE, h0, hm, hne]
          · simp [repE, h0, hm]
        · simp [repE, h0]
      · by_cases h1 : repE n as p a = 0
        · rw [if_pos h1, Function.update_of_ne hb]; simp [repE, hb]
        · rw [if_neg h1]; simp [repE, hb]
    rw [e]
    split_ifs <;> rfl

lemma applyPeriodicH (n : Pos) (co : K) (im : VField K) : ∀ (as : List (Fin 3)) (H : VField K) (p : Pos),
    (∀ a ∈ as, 2 ≤ n a) →
    applyBoundariesH n co im (as.map FBoundary.periodic) H p = H (repH n as p) := by
  intro as
  induction as with
  | nil =>
    intro E p _
    have : repH n [] p = p := by funext b; simp [repH]
    rw [this]; rfl
  | cons a as ih =>
    intro H p h
    show applyBoundariesH n co im (as.map FBoundary.periodic) (periodicH n a H) p = _
    rw [ih _ _ (fun b hb => h b (List.mem_cons_of_mem _ hb))]
    have ha := h a List.mem_cons_self
    funext c
    simp only [periodicH]
    have e : repH n (a :: as) p = if repH n as p a = n a - 1 then Function.update (repH n as p) a 0 else repH n as p := by
      funext b
      by_cases hb : b = a
      · subst hb
        by_cases h0 : p b = n b - 1
        · by_cases hm : b ∈ as
          · have hne : ¬ (0 = n b - 1) := by omega
            simp [repH, h0, hm, hne]
          · simp [repH, h0, hm]
        · simp [repH, h0]
      · by_cases h1 : repH n as p a = n a - 1
        · rw [if_pos h1, Function.update_of_ne hb]; simp [repH, hb]
        · rw [if_neg h1]; simp [repH, hb]
    rw [e]
    split_ifs <;> rfl

/-- the lattice wrapping on the listed axes -/
def torusOf (n : Pos) (as : List (Fin 3)) : Torus.Lattice := ⟨n, fun a => decide (a ∈ as)⟩

/-- total value the soft sources add -/
def totalDrive (ss : List (FSource K)) (t : ℕ) : VField K := fun p c =>
  (ss.map fun s => match s with
    | .soft drive => drive t p c
    | .plane _ _ _ _ => 0).sum

/-- all sources are point or line sources -/
def AllSoft (ss : List (FSource K)) : Prop := ∀ s ∈ ss, ∃ drive, s = .soft drive

lemma applySoftE (t : ℕ) : ∀ (ss : List (FSource K)) (E : VField K) (p : Pos) (c : Fin 3), AllSoft ss →
    applySourcesE t ss E p c = E p c + totalDrive ss t p c := by
  intro ss
  induction ss with
  | nil => intro E p c _; simp [applySourcesE, totalDrive]
  | cons s ss ih =>
    intro E p c h
    show applySourcesE t ss (s.updateE t E) p c = _
    rw [ih _ _ _ (fun s' hs' => h s' (List.mem_cons_of_mem _ hs'))]
    obtain ⟨d, rfl⟩ := h s List.mem_cons_self
    simp only [FSource.updateE, totalDrive, List.map_cons, List.sum_cons]
    ring

lemma applySoftH (t : ℕ) : ∀ (ss : List (FSource K)) (H : VField K), AllSoft ss →
    applySourcesH t ss H = H := by
  intro ss
  induction ss with
  | nil => intro H _; rfl
  | cons s ss ih =>
    intro H h
    obtain ⟨d, rfl⟩ := h s List.mem_cons_self
    exact ih H (fun s' hs' => h s' (List.mem_cons_of_mem _ hs'))

/-- the wrapped medium belonging to a grid: on a wrapped axis the electric material of the first plane is never used (the code overwrites
that plane by the last one), nor is the magnetic material of the last plane -/
def mediumOf (g : FGrid K) (as : List (Fin 3)) : Torus.Medium K where
  courant := g.courant
  invEps := fun q => g.invEps (repE g.n as q)
  invMu := fun q => g.invMu q
  loss := fun q => g.absorb (repE g.n as q)
  drive := fun t q => totalDrive g.sources t q

/-- the sources give identified planes the same value -/
def DriveWraps (g : FGrid K) (as : List (Fin 3)) : Prop :=
  ∀ t p c, p ∈ box g.n → totalDrive g.sources t p c = totalDrive g.sources t ((torusOf g.n as).wrap p) c

/-- the grid fields are the torus fields read through the wrap-around -/
def Represents (g : FGrid K) (as : List (Fin 3)) (e h : VField K) : Prop :=
  ∀ p ∈ box g.n, ∀ c, g.E p c = e ((torusOf g.n as).wrap p) c ∧ g.H p c = h ((torusOf g.n as).wrap p) c

lemma wrap_apply (n : Pos) (as : List (Fin 3)) (p : Pos) (b : Fin 3) :
    (torusOf n as).wrap p b = if b ∈ as then p b % (n b - 1) else p b := by
  simp [torusOf, Torus.Lattice.wrap]

lemma wrap_repE (n : Pos) (as : List (Fin 3)) (p : Pos) :
    (torusOf n as).wrap (repE n as p) = (torusOf n as).wrap p := by
  funext b
  rw [wrap_apply, wrap_apply]
  by_cases hb : b ∈ as
  · by_cases h0 : p b = 0
    · simp [repE, hb, h0]
    · simp [repE, hb, h0]
  · simp [repE, hb]

lemma wrap_repH (n : Pos) (as : List (Fin 3)) (p : Pos) :
    (torusOf n as).wrap (repH n as p) = (torusOf n as).wrap p := by
  funext b
  rw [wrap_apply, wrap_apply]
  by_cases hb : b ∈ as
  · by_cases h0 : p b = n b - 1
    · simp [repH, hb, h0]
    · simp [repH, hb, h0]
  · simp [repH, hb]

lemma repE_box {n : Pos} (as : List (Fin 3)) {p : Pos} (hp : p ∈ box n) : repE n as p ∈ box n := by
  rw [mem_box] at *
  intro b
  have := hp b
  simp only [repE]
  split_ifs <;> omega

lemma repH_box {n : Pos} (as : List (Fin 3)) {p : Pos} (hp : p ∈ box n) : repH n as p ∈ box n := by
  rw [mem_box] at *
  intro b
  have := hp b
  simp only [repH]
  split_ifs <;> omega

lemma repE_wrap {n : Pos} {as : List (Fin 3)} (hn : ∀ a ∈ as, 2 ≤ n a) {p : Pos} (hp : p ∈ box n) :
    repE n as ((torusOf n as).wrap p) = repE n as p := by
  funext b
  have hb := mem_box.mp hp b
  simp only [repE, wrap_apply]
  by_cases h : b ∈ as
  · have := hn b h
    simp only [h, true_and, if_true]
    by_cases h1 : p b = n b - 1
    · rw [h1, Nat.mod_self]; simp
    · rw [Nat.mod_eq_of_lt (by omega)]
  · simp [h]

lemma wrap_dn {n : Pos} {as : List (Fin 3)} (hn : ∀ a ∈ as, 2 ≤ n a) {p : Pos} (hp : p ∈ box n) (a : Fin 3)
    (ha : a ∈ as → 1 ≤ p a) :
    (torusOf n as).wrap (p.dn a) = (torusOf n as).prev ((torusOf n as).wrap p) a := by
  funext b
  have hb := mem_box.mp hp a
  rw [wrap_apply]
  by_cases hba : b = a
  · subst hba
    simp only [Torus.Lattice.prev, Function.update_self, wrap_apply, Pos.dn_self]
    by_cases h : b ∈ as
    · have h1 := ha h
      have h2 := hn b h
      simp only [h, if_true, torusOf, decide_true, true_and]
      by_cases h3 : p b = n b - 1
      · rw [h3, Nat.mod_self, if_pos rfl, Nat.mod_eq_of_lt (by omega)]; omega
      · rw [Nat.mod_eq_of_lt (by omega), Nat.mod_eq_of_lt (by omega), if_neg (by omega)]
    · simp [h, torusOf]
  · simp only [Torus.Lattice.prev, Function.update_of_ne hba, wrap_apply, Pos.dn_ne _ hba]

lemma wrap_up {n : Pos} {as : List (Fin 3)} (hn : ∀ a ∈ as, 2 ≤ n a) {p : Pos} (a : Fin 3)
    (ha : p a + 1 < n a) :
    (torusOf n as).wrap (p.up a) = (torusOf n as).next ((torusOf n as).wrap p) a := by
  funext b
  rw [wrap_apply]
  by_cases hba : b = a
  · subst hba
    simp only [Torus.Lattice.next, Function.update_self, wrap_apply, Pos.up_self]
    by_cases h : b ∈ as
    · have h2 := hn b h
      simp only [h, if_true, torusOf, decide_true, true_and]
      rw [Nat.mod_eq_of_lt (a := p b) (by omega)]
      by_cases h3 : p b + 2 = n b
      · rw [if_pos h3, show p b + 1 = n b - 1 by omega, Nat.mod_self]
      · rw [if_neg h3, Nat.mod_eq_of_lt (by omega)]
    · simp [h, torusOf]
  · simp only [Torus.Lattice.next, Function.update_of_ne hba, wrap_apply, Pos.up_ne _ hba]

lemma bwd_of_dDn {n : Pos} {as : List (Fin 3)} (hn : ∀ a ∈ as, 2 ≤ n a) {F f : VField K}
    (hF : ∀ p ∈ box n, ∀ c, F p c = f ((torusOf n as).wrap p) c) {p : Pos} (hp : p ∈ box n)
    (hrep : ∀ a ∈ as, 1 ≤ p a) (a c : Fin 3) :
    dDn F a c p = Torus.bwd (torusOf n as) f a c ((torusOf n as).wrap p) := by
  have hiff : (torusOf n as).hasPrev ((torusOf n as).wrap p) a ↔ 1 ≤ p a := by
    simp only [Torus.Lattice.hasPrev, wrap_apply]
    by_cases h : a ∈ as
    · simp [torusOf, h, hrep a h]
    · simp [torusOf, h]
  unfold dDn Torus.bwd
  by_cases h : 1 ≤ p a
  · rw [if_pos h, if_pos (hiff.mpr h), hF p hp, hF _ (dn_mem_box hp), wrap_dn hn hp a (hrep a)]
  · rw [if_neg h, if_neg (fun hh => h (hiff.mp hh))]

lemma fwd_of_dUp {n : Pos} {as : List (Fin 3)} (hn : ∀ a ∈ as, 2 ≤ n a) {F f : VField K}
    (hF : ∀ p ∈ box n, ∀ c, F p c = f ((torusOf n as).wrap p) c) {p : Pos} (hp : p ∈ box n)
    (hrep : ∀ a ∈ as, p a + 1 < n a) (a c : Fin 3) :
    dUp n F a c p = Torus.fwd (torusOf n as) f a c ((torusOf n as).wrap p) := by
  have hiff : (torusOf n as).hasNext ((torusOf n as).wrap p) a ↔ p a + 1 < n a := by
    simp only [Torus.Lattice.hasNext, wrap_apply]
    by_cases h : a ∈ as
    · simp [torusOf, h, hrep a h]
    · simp [torusOf, h]
  unfold dUp Torus.fwd
  by_cases h : p a + 1 < n a
  · rw [if_pos h, if_pos (hiff.mpr h), hF p hp, hF _ (up_mem_box hp h), wrap_up hn a h]
  · rw [if_neg h, if_neg (fun hh => h (hiff.mp hh))]

lemma curlBwd_of_curlH {n : Pos} {as : List (Fin 3)} (hn : ∀ a ∈ as, 2 ≤ n a) {F f : VField K}
    (hF : ∀ p ∈ box n, ∀ c, F p c = f ((torusOf n as).wrap p) c) {p : Pos} (hp : p ∈ box n)
    (hrep : ∀ a ∈ as, 1 ≤ p a) (c : Fin 3) :
    curlH F p c = Torus.curlBwd (torusOf n as) f ((torusOf n as).wrap p) c := by
  have h := fun a c => bwd_of_dDn hn hF hp hrep a c
  fin_cases c <;> simp only [curlH, Torus.curlBwd, h] <;> rfl

lemma curlFwd_of_curlE {n : Pos} {as : List (Fin 3)} (hn : ∀ a ∈ as, 2 ≤ n a) {F f : VField K}
    (hF : ∀ p ∈ box n, ∀ c, F p c = f ((torusOf n as).wrap p) c) {p : Pos} (hp : p ∈ box n)
    (hrep : ∀ a ∈ as, p a + 1 < n a) (c : Fin 3) :
    curlE n F p c = Torus.curlFwd (torusOf n as) f ((torusOf n as).wrap p) c := by
  have h := fun a c => fwd_of_dUp hn hF hp hrep a c
  fin_cases c <;> simp only [curlE, Torus.curlFwd, h] <;> rfl

lemma periodic_phased (n : Pos) (F : VField K) (as : List (Fin 3)) :
    (as.map (FBoundary.periodic (K := K))).map (FBoundary.updatePhiE n F) = as.map FBoundary.periodic ∧
    (as.map (FBoundary.periodic (K := K))).map (FBoundary.updatePhiH n F) = as.map FBoundary.periodic := by
  induction as with
  | nil => exact ⟨rfl, rfl⟩
  | cons a as ih =>
    simp only [List.map_cons, FBoundary.updatePhiE, FBoundary.updatePhiH]
    exact ⟨by rw [ih.1], by rw [ih.2]⟩

lemma run_boundaries_periodic (g : FGrid K) (as : List (Fin 3)) (hb : g.boundaries = as.map FBoundary.periodic) (k : ℕ) :
    (g.run k).boundaries = as.map FBoundary.periodic := by
  induction k with
  | zero => exact hb
  | succ k ih =>
    show ((g.run k).boundaries.map _).map _ = _
    rw [ih, (periodic_phased _ _ as).1]
    exact (periodic_phased _ _ as).2

lemma newE_periodic (g : FGrid K) (as : List (Fin 3)) (hb : g.boundaries = as.map FBoundary.periodic)
    (hn : ∀ a ∈ as, 2 ≤ g.n a) (hs : AllSoft g.sources) (p : Pos) (c : Fin 3) :
    g.newE p c = bulkE g (repE g.n as p) c + totalDrive g.sources g.time p c := by
  rw [FGrid.newE, applySoftE _ _ _ _ _ hs, FGrid.phasedE, hb, (periodic_phased _ _ as).1, applyPeriodicE _ _ _ _ _ _ hn]

lemma newH_periodic (g : FGrid K) (as : List (Fin 3)) (hb : g.boundaries = as.map FBoundary.periodic)
    (hn : ∀ a ∈ as, 2 ≤ g.n a) (hs : AllSoft g.sources) (p : Pos) (c : Fin 3) :
    g.newH p c = bulkH g (repH g.n as p) c := by
  rw [FGrid.newH, applySoftH _ _ _ hs, FGrid.phasedH, hb, (periodic_phased _ _ as).2, applyPeriodicH _ _ _ _ _ _ hn]

lemma represents_step (g : FGrid K) (as : List (Fin 3)) (hb : g.boundaries = as.map FBoundary.periodic)
    (hn : ∀ a ∈ as, 2 ≤ g.n a) (hs : AllSoft g.sources) (hd : DriveWraps g as) (e h : VField K)
    (hR : Represents g as e h) :
    Represents g.step as (Torus.stepE (torusOf g.n as) (mediumOf g as) g.time e h)
      (Torus.stepH (torusOf g.n as) (mediumOf g as) (Torus.stepE (torusOf g.n as) (mediumOf g as) g.time e h) h) := by
  have hE : ∀ p ∈ box g.n, ∀ c, g.newE p c
      = Torus.stepE (torusOf g.n as) (mediumOf g as) g.time e h ((torusOf g.n as).wrap p) c := by
    intro p hp c
    have hp' := repE_box as hp
    have hge : ∀ a ∈ as, 1 ≤ repE g.n as p a := fun a ha => by
      have := hn a ha
      simp only [repE, ha, true_and]
      split_ifs <;> omega
    rw [newE_periodic g as hb hn hs, hd _ _ _ hp]
    unfold bulkE Torus.stepE
    rw [(hR _ hp' c).1, curlBwd_of_curlH hn (fun q hq c => (hR q hq c).2) hp' hge, wrap_repE]
    simp only [mediumOf, repE_wrap hn hp]
    ring
  intro p hp c
  change p ∈ box g.n at hp
  refine ⟨hE p hp c, ?_⟩
  show g.updateE.newH p c = _
  have hb' : g.updateE.boundaries = as.map FBoundary.periodic := by
    show g.boundaries.map _ = _
    rw [hb]; exact (periodic_phased _ _ as).1
  rw [newH_periodic g.updateE as hb' hn hs]
  have hp' := repH_box as hp
  have hlt : ∀ a ∈ as, repH g.n as p a + 1 < g.n a := fun a ha => by
    have := hn a ha
    have := mem_box.mp hp a
    simp only [repH, ha, true_and]
    split_ifs <;> omega
  show g.H (repH g.n as p) c - g.courant * g.invMu (repH g.n as p) c * curlE g.n g.newE (repH g.n as p) c = _
  rw [(hR _ hp' c).2, curlFwd_of_curlE hn hE hp' hlt, wrap_repH]
  have hw : (torusOf g.n as).wrap p = repH g.n as p := by
    funext b
    have hbx := mem_box.mp hp b
    rw [wrap_apply]
    by_cases hb : b ∈ as
    · have := hn b hb
      simp only [repH, hb, true_and, if_true]
      split_ifs with h1
      · rw [h1, Nat.mod_self]
      · rw [Nat.mod_eq_of_lt (by omega)]
    · simp [repH, hb]
  rw [← hw]
  rfl

/-- C48: a grid with periodic boundaries on the axes `as` (in any order, all three possible) whose fields agree on identified planes
computes, for every number of steps, exactly what the wrapped lattice with one plane less per such axis computes. -/
theorem C48_torus (g : FGrid K) (as : List (Fin 3)) (hb : g.boundaries = as.map FBoundary.periodic)
    (hn : ∀ a ∈ as, 2 ≤ g.n a) (hs : AllSoft g.sources) (hd : DriveWraps g as) (e h : VField K)
    (hR : Represents g as e h) (k : ℕ) :
    Represents (g.run k) as (Torus.run (torusOf g.n as) (mediumOf g as) g.time e h k).1
      (Torus.run (torusOf g.n as) (mediumOf g as) g.time e h k).2 := by
  induction k with
  | zero => exact hR
  | succ k ih =>
    have hn' : (g.run k).n = g.n := run_n g k
    have hm : mediumOf (g.run k) as = mediumOf g as := by
      simp only [mediumOf, run_n, run_courant, run_invEps, run_invMu, run_absorb, run_sources]
    have hst := represents_step (g.run k) as (run_boundaries_periodic g as hb k) (by rw [hn']; exact hn)
      (by rw [run_sources]; exact hs) (by intro t p c hp; rw [run_sources]; rw [hn'] at hp ⊢; exact hd t p c hp) _ _ ih
    rw [hm, hn', run_time] at hst
    exact hst

/-- C48: whatever the fields were before, after a step the first and last electric planes coincide on every periodic axis, and so do the magnetic
ones (for sources giving both planes the same value). -/
theorem C48_planes (g : FGrid K) (as : List (Fin 3)) (hb : g.boundaries = as.map FBoundary.periodic)
    (hn : ∀ a ∈ as, 2 ≤ g.n a) (hs : AllSoft g.sources) (hd : DriveWraps g as) (a : Fin 3) (ha : a ∈ as) (k : ℕ)
    (p : Pos) (hp : p ∈ box g.n) (c : Fin 3) :
    (g.run (k + 1)).E (Function.update p a 0) c = (g.run (k + 1)).E (Function.update p a (g.n a - 1)) c ∧
    (g.run (k + 1)).H (Function.update p a 0) c = (g.run (k + 1)).H (Function.update p a (g.n a - 1)) c := by
  have hna := hn a ha
  have hb0 : ∀ m, m < g.n a → Function.update p a m ∈ box g.n := fun m hm => by
    rw [mem_box] at *
    intro b
    by_cases h : b = a
    · subst h; simpa using hm
    · rw [Function.update_of_ne h]; exact hp b
  have hwr : (torusOf g.n as).wrap (Function.update p a 0) = (torusOf g.n as).wrap (Function.update p a (g.n a - 1)) := by
    funext b
    rw [wrap_apply, wrap_apply]
    by_cases h : b = a
    · subst h; simp [ha]
    · simp [Function.update_of_ne h]
  have hrE : repE g.n as (Function.update p a 0) = repE g.n as (Function.update p a (g.n a - 1)) := by
    rw [← repE_wrap hn (hb0 0 (by omega)), hwr, repE_wrap hn (hb0 _ (by omega))]
  have hrH : repH g.n as (Function.update p a 0) = repH g.n as (Function.update p a (g.n a - 1)) := by
    funext b
    simp only [repH]
    by_cases h : b = a
    · subst h; simp [ha]
    · simp [Function.update_of_ne h]
  have hn' := run_n g k
  constructor
  · show (g.run k).newE _ c = (g.run k).newE _ c
    rw [newE_periodic _ as (run_boundaries_periodic g as hb k) (by rw [hn']; exact hn) (by rw [run_sources]; exact hs),
      newE_periodic _ as (run_boundaries_periodic g as hb k) (by rw [hn']; exact hn) (by rw [run_sources]; exact hs), hn', hrE,
      run_sources, hd _ _ _ (hb0 0 (by omega)), hwr, ← hd _ _ _ (hb0 _ (by omega))]
  · have hb' : (g.run k).updateE.boundaries = as.map FBoundary.periodic := by
      show (g.run k).boundaries.map _ = _
      rw [run_boundaries_periodic g as hb k]; exact (periodic_phased _ _ as).1
    have hnu : (g.run k).updateE.n = g.n := run_n g k
    show (g.run k).updateE.newH _ c = (g.run k).updateE.newH _ c
    have hsu : AllSoft (g.run k).updateE.sources := by
      show AllSoft (g.run k).sources
      rw [run_sources]; exact hs
    rw [newH_periodic _ as hb' (by rw [hnu]; exact hn) hsu, newH_periodic _ as hb' (by rw [hnu]; exact hn) hsu, hnu, hrH]

/-- a 4 x 3 x 1 grid, periodic in x and y, with a source giving both ends of y the same value, is such a grid -/
example : ∃ g : FGrid ℚ, g.boundaries = [0, 1].map FBoundary.periodic ∧ (∀ a ∈ [(0 : Fin 3), 1], 2 ≤ g.n a) ∧ AllSoft g.sources ∧
    DriveWraps g [0, 1] ∧ Represents g [0, 1] (fun _ _ => 0) (fun _ _ => 0) ∧ ∃ p ∈ box g.n, ∃ c, totalDrive g.sources 3 p c ≠ 0 := by
  refine ⟨{ FGrid.fresh ![4, 3, 1] (1 / 2) 1 1 with
    boundaries := [0, 1].map FBoundary.periodic
    sources := [.soft fun t p c => if p 0 = 1 ∧ c = 2 then (if p 1 = 1 then 2 * t else t) else 0] }, rfl, by decide,
    by intro s hs; simp only [List.mem_singleton] at hs; exact ⟨_, hs⟩, ?_, fun _ _ _ => ⟨rfl, rfl⟩, ![1, 1, 0], ?_, 2, ?_⟩
  · intro t p c hp
    rw [mem_box] at hp
    have h0 : p 0 < 4 := hp 0
    have h1 : p 1 < 3 := hp 1
    have e0 : (torusOf ![4, 3, 1] [0, 1]).wrap p 0 = p 0 % 3 := by simp [wrap_apply]
    have e1 : (torusOf ![4, 3, 1] [0, 1]).wrap p 1 = p 1 % 2 := by simp [wrap_apply]
    simp only [totalDrive, List.map_cons, List.map_nil, List.sum_cons, List.sum_nil, FGrid.fresh, e0, e1]
    have i0 : (p 0 % 3 = 1) = (p 0 = 1) := by rw [eq_iff_iff]; omega
    have i1 : (p 1 % 2 = 1) = (p 1 = 1) := by rw [eq_iff_iff]; omega
    simp only [i0, i1]
  · rw [mem_box]; decide
  · decide +kernel

end

end Nidn
