/-
C168: the activations recorded by `Siren.forward_with_activations` are those of the forward pass, all of them, in order.
-/
import Verif.Model.SirenRecord
import Verif.Lemmas.PrintText

namespace Nidn

/-! ### Specification -/

/-- how many entries a module leaves in the record: two for a sine layer (before and after the sine), one for any other -/
def SirenModule.entries : SirenModule → ℕ
  | .sine _ _ => 2
  | _ => 1

/-- the number of entries of a list of modules -/
def entries (ms : List SirenModule) : ℕ := (ms.map SirenModule.entries).sum

/-! ### Keys -/

lemma actKey_inj {c c' : Str} {n n' : ℕ} (h : actKey c n = actKey c' n') : n = n' := by
  have hd : ∀ k : ℕ, '_' ∉ Nat.toDigits 10 k := fun k hh => by
    have := Nat.isDigit_of_mem_toDigits (by omega) (by omega) hh
    revert this
    decide
  have key : ∀ (a : Str) (k : ℕ), ((actKey a k).reverse.takeWhile fun x => x ≠ '_') = (Nat.toDigits 10 k).reverse := by
    intro a k
    unfold actKey
    rw [List.reverse_append, List.reverse_cons, List.append_assoc, List.takeWhile_append_of_pos]
    · simp
    · intro x hx
      have := hd k
      rw [List.mem_reverse] at hx
      simp only [decide_eq_true_eq]
      rintro rfl
      exact this hx
  have := key c n
  rw [h, key] at this
  have := List.reverse_inj.1 this
  rw [← toDigits_value n, ← this, toDigits_value]

lemma actKey_input (c : Str) (n : ℕ) : "input".toList ≠ actKey c n := by
  intro h
  have : '_' ∈ "input".toList := by
    rw [h]
    unfold actKey
    simp
  revert this
  decide

lemma odSet_new {d : List (Str × List ℝ)} {k : Str} (v : List ℝ) (h : k ∉ d.map Prod.fst) : odSet d k v = d ++ [(k, v)] := by
  unfold odSet
  rw [if_neg h]

/-! ### The loop -/

/-- what the loop appends -/
structure ActsRecorded (ms : List SirenModule) (n : ℕ) (x y : List ℝ) (add : List (Str × List ℝ)) : Prop where
  length : add.length = entries ms
  keys : ∀ k ∈ add.map Prod.fst, ∃ t c, n ≤ c ∧ k = actKey t c
  nodup : (add.map Prod.fst).Nodup
  last : (x :: add.map Prod.snd).getLast? = some y
  values : ∀ i (hi : i < ms.length), ∃ u v, sirenCall (ms.take i) x = .ok u ∧ sirenCall (ms.take (i + 1)) x = .ok v ∧ (x :: add.map Prod.snd)[entries (ms.take (i + 1))]? = some v ∧
    ∀ l w, ms[i] = .sine l w → ∃ z, l.forward u = .ok z ∧ (x :: add.map Prod.snd)[entries (ms.take (i + 1)) - 1]? = some (z.map fun a => w * a)

lemma recordLoop_spec : ∀ (ms : List SirenModule) (n : ℕ) (x : List ℝ) (acts : List (Str × List ℝ)), (∀ k ∈ acts.map Prod.fst, ∀ t c, n ≤ c → k ≠ actKey t c) →
    (∀ e, sirenCall ms x = .error e → recordLoop ms n x acts = .error e) ∧
    ∀ y, sirenCall ms x = .ok y → ∃ add, recordLoop ms n x acts = .ok (acts ++ add) ∧ ActsRecorded ms n x y add := by
  intro ms
  induction ms with
  | nil =>
    intro n x acts _
    refine ⟨fun e h => by (unfold sirenCall at h; cases h), fun y h => ?_⟩
    unfold sirenCall at h
    cases h
    exact ⟨[], by rw [List.append_nil]; rfl, ⟨rfl, by simp, by simp, rfl, fun i hi => absurd hi (Nat.not_lt_zero _)⟩⟩
  | cons m rest ih =>
    intro n x acts hk
    -- one module that leaves one entry
    have single : (∀ acts, recordLoop (m :: rest) n x acts = (do let y ← m.call x; recordLoop rest (n + 1) y (odSet acts (actKey m.cls n) y))) → m.entries = 1 → (∀ l w, m ≠ .sine l w) → 
        (∀ e, sirenCall (m :: rest) x = .error e → recordLoop (m :: rest) n x acts = .error e) ∧
        ∀ y, sirenCall (m :: rest) x = .ok y → ∃ add, recordLoop (m :: rest) n x acts = .ok (acts ++ add) ∧ ActsRecorded (m :: rest) n x y add := by
      intro hrec hent hns
      have hcall : sirenCall (m :: rest) x = (do let y ← m.call x; sirenCall rest y) := rfl
      rw [hrec, hcall]
      cases hm : m.call x with
      | error e =>
        refine ⟨fun e' h => ?_, fun y h => ?_⟩
        · cases h
          rfl
        · cases h
      | ok x1 =>
        have hnew : odSet acts (actKey m.cls n) x1 = acts ++ [(actKey m.cls n, x1)] := odSet_new _ fun hmem => hk _ hmem _ n le_rfl rfl
        obtain ⟨i1, i2⟩ := ih (n + 1) x1 (acts ++ [(actKey m.cls n, x1)]) (by
          intro k hkm t c hc
          rw [List.map_append, List.mem_append] at hkm
          rcases hkm with hkm | hkm
          · exact hk k hkm t c (by omega)
          · rw [List.mem_singleton.1 hkm]
            intro h
            have := actKey_inj h
            omega)
        refine ⟨fun e h => ?_, fun y h => ?_⟩
        · show recordLoop rest (n + 1) x1 (odSet acts (actKey m.cls n) x1) = .error e
          rw [hnew]
          exact i1 e h
        · obtain ⟨add, ha, hr⟩ := i2 y h
          refine ⟨(actKey m.cls n, x1) :: add, ?_, ?_, ?_, ?_, ?_, ?_⟩
          · show recordLoop rest (n + 1) x1 (odSet acts (actKey m.cls n) x1) = _
            rw [hnew, ha, List.append_assoc]
            rfl
          · rw [List.length_cons, hr.length]
            unfold entries
            rw [List.map_cons, List.sum_cons, hent, add_comm]
          · intro k hkm
            rw [List.map_cons, List.mem_cons] at hkm
            rcases hkm with rfl | hkm
            · exact ⟨_, n, le_rfl, rfl⟩
            · obtain ⟨t, c, hc, e⟩ := hr.keys k hkm
              exact ⟨t, c, by omega, e⟩
          · rw [List.map_cons, List.nodup_cons]
            refine ⟨fun hmem => ?_, hr.nodup⟩
            obtain ⟨t, c, hc, e⟩ := hr.keys _ hmem
            have := actKey_inj e
            omega
          · rw [List.map_cons, List.getLast?_cons_cons]
            exact hr.last
          · intro i hi
            have hshift : ∀ j, entries ((m :: rest).take (j + 1)) = entries (rest.take j) + 1 := by
              intro j
              unfold entries
              rw [List.take_succ_cons, List.map_cons, List.sum_cons, hent, add_comm]
            cases i with
            | zero =>
              refine ⟨x, x1, rfl, ?_, ?_, fun l w e => absurd e (hns l w)⟩
              · show (do let y ← m.call x; sirenCall [] y) = _
                rw [hm]
                rfl
              · rw [hshift]
                rfl
            | succ i =>
              obtain ⟨u, v, h1, h2, h3, h4⟩ := hr.values i (by simpa using hi)
              refine ⟨u, v, ?_, ?_, ?_, fun l w e => ?_⟩
              · show (do let y ← m.call x; sirenCall (rest.take i) y) = _
                rw [hm]
                exact h1
              · show (do let y ← m.call x; sirenCall (rest.take (i + 1)) y) = _
                rw [hm]
                exact h2
              · rw [hshift, List.map_cons, List.getElem?_cons_succ]
                exact h3
              · obtain ⟨z, z1, z2⟩ := h4 l w e
                have hpos : 1 ≤ entries (rest.take (i + 1)) := by
                  have hi' : i < rest.length := by simpa using hi
                  unfold entries
                  rw [List.take_succ_eq_append_getElem hi', List.map_append, List.sum_append]
                  have e' : rest[i] = .sine l w := e
                  rw [e']
                  simp [SirenModule.entries]
                refine ⟨z, z1, ?_⟩
                rw [hshift, show entries (rest.take (i + 1)) + 1 - 1 = (entries (rest.take (i + 1)) - 1) + 1 by omega, List.map_cons, List.getElem?_cons_succ]
                exact z2
    cases m with
    | linear l => exact single (fun _ => rfl) rfl (by simp)
    | act c f => exact single (fun _ => rfl) rfl (by simp)
    | sine l w =>
      have hcall : sirenCall (.sine l w :: rest) x = (do let y ← (SirenModule.sine l w).call x; sirenCall rest y) := rfl
      cases hl : l.forward x with
      | error e =>
        have hm : (SirenModule.sine l w).call x = .error e := by dsimp only [SirenModule.call]; rw [hl]; rfl
        have hr : recordLoop (.sine l w :: rest) n x acts = .error e := by unfold recordLoop sineIntermediate; rw [hl]; rfl
        rw [hcall, hm, hr]
        refine ⟨fun e' h => ?_, fun y h => ?_⟩
        · cases h
          rfl
        · cases h
      | ok z =>
        set x1 := z.map fun v => Real.sin (w * v) with hx1
        set q := z.map fun v => w * v with hq
        have hm : (SirenModule.sine l w).call x = .ok x1 := by dsimp only [SirenModule.call]; rw [hl]; rfl
        set k1 := actKey (SirenModule.sine l w).cls n with hk1
        set k2 := actKey (SirenModule.sine l w).cls (n + 1) with hk2
        have hne : k2 ≠ k1 := fun h => by
          have := actKey_inj h
          omega
        have hrec : recordLoop (.sine l w :: rest) n x acts = recordLoop rest (n + 2) x1 (odSet (odSet acts k1 q) k2 x1) := by
          have : sineIntermediate l w x = .ok (x1, q) := by
            unfold sineIntermediate
            rw [hl]
            show Except.ok ((z.map fun v => w * v).map Real.sin, z.map fun v => w * v) = _
            rw [List.map_map]
            rfl
          rw [recordLoop, this]
          rfl
        have hnew : odSet (odSet acts k1 q) k2 x1 = acts ++ [(k1, q), (k2, x1)] := by
          rw [odSet_new _ fun hmem => hk _ hmem _ n le_rfl rfl, odSet_new, List.append_assoc]
          · rfl
          · rw [List.map_append, List.mem_append]
            rintro (hmem | hmem)
            · exact hk _ hmem _ (n + 1) (by omega) rfl
            · exact hne (List.mem_singleton.1 hmem)
        rw [hcall, hm, hrec, hnew]
        obtain ⟨i1, i2⟩ := ih (n + 2) x1 (acts ++ [(k1, q), (k2, x1)]) (by
          intro k hkm t c hc
          rw [List.map_append, List.mem_append] at hkm
          rcases hkm with hkm | hkm
          · exact hk k hkm t c (by omega)
          · simp only [List.map_cons, List.map_nil, List.mem_cons, List.not_mem_nil, or_false] at hkm
            rcases hkm with rfl | rfl <;>
            · intro h
              have := actKey_inj h
              omega)
        refine ⟨fun e h => i1 e h, fun y h => ?_⟩
        obtain ⟨add, ha, hr⟩ := i2 y h
        refine ⟨(k1, q) :: (k2, x1) :: add, ?_, ?_, ?_, ?_, ?_, ?_⟩
        · rw [ha, List.append_assoc]
          rfl
        · rw [List.length_cons, List.length_cons, hr.length]
          unfold entries
          rw [List.map_cons, List.sum_cons]
          show _ = 2 + _
          omega
        · intro k hkm
          rw [List.map_cons, List.map_cons, List.mem_cons, List.mem_cons] at hkm
          rcases hkm with rfl | rfl | hkm
          · exact ⟨_, n, le_rfl, rfl⟩
          · exact ⟨_, n + 1, by omega, rfl⟩
          · obtain ⟨t, c, hc, e⟩ := hr.keys k hkm
            exact ⟨t, c, by omega, e⟩
        · rw [List.map_cons, List.map_cons, List.nodup_cons, List.nodup_cons, List.mem_cons]
          refine ⟨?_, fun hmem => ?_, hr.nodup⟩
          · rintro (h | hmem)
            · exact hne h.symm
            · obtain ⟨t, c, hc, e⟩ := hr.keys _ hmem
              have := actKey_inj e
              omega
          · obtain ⟨t, c, hc, e⟩ := hr.keys _ hmem
            have := actKey_inj e
            omega
        · rw [List.map_cons, List.map_cons, List.getLast?_cons_cons, List.getLast?_cons_cons]
          exact hr.last
        · intro i hi
          have hshift : ∀ j, entries ((SirenModule.sine l w :: rest).take (j + 1)) = entries (rest.take j) + 2 := by
            intro j
            unfold entries
            rw [List.take_succ_cons, List.map_cons, List.sum_cons]
            show 2 + _ = _
            omega
          cases i with
          | zero =>
            refine ⟨x, x1, rfl, ?_, ?_, fun l' w' e => ?_⟩
            · show (do let y ← (SirenModule.sine l w).call x; sirenCall [] y) = _
              rw [hm]
              rfl
            · rw [hshift]
              rfl
            · cases e
              refine ⟨z, hl, ?_⟩
              rw [hshift]
              rfl
          | succ i =>
            obtain ⟨u, v, h1, h2, h3, h4⟩ := hr.values i (by simpa using hi)
            refine ⟨u, v, ?_, ?_, ?_, fun l' w' e => ?_⟩
            · show (do let y ← (SirenModule.sine l w).call x; sirenCall (rest.take i) y) = _
              rw [hm]
              exact h1
            · show (do let y ← (SirenModule.sine l w).call x; sirenCall (rest.take (i + 1)) y) = _
              rw [hm]
              exact h2
            · rw [hshift, List.map_cons, List.map_cons, List.getElem?_cons_succ, List.getElem?_cons_succ]
              exact h3
            · obtain ⟨z', z1, z2⟩ := h4 l' w' e
              have hpos : 1 ≤ entries (rest.take (i + 1)) := by
                have hi' : i < rest.length := by simpa using hi
                unfold entries
                rw [List.take_succ_eq_append_getElem hi', List.map_append, List.sum_append]
                have e' : rest[i] = .sine l' w' := e
                rw [e']
                simp [SirenModule.entries]
              refine ⟨z', z1, ?_⟩
              rw [hshift, show entries (rest.take (i + 1)) + 2 - 1 = (entries (rest.take (i + 1)) - 1) + 1 + 1 by omega, List.map_cons, List.map_cons, List.getElem?_cons_succ, List.getElem?_cons_succ]
              exact z2

/-- C168: the record has the input first, then for every sine layer its values before and after the sine and for every other module its output, in order and none overwritten; the last entry is the output of the network. -/
theorem C168_record {ms : List SirenModule} {x y : List ℝ} (h : sirenCall ms x = .ok y) : ∃ acts, sirenActivations ms x = .ok acts ∧
    acts.length = 1 + (ms.map SirenModule.entries).sum ∧ (acts.map Prod.fst).Nodup ∧ acts.head? = some ("input".toList, x) ∧ (acts.map Prod.snd).getLast? = some y ∧
    ∀ i (hi : i < ms.length), ∃ u v, sirenCall (ms.take i) x = .ok u ∧ sirenCall (ms.take (i + 1)) x = .ok v ∧
      (acts.map Prod.snd)[((ms.take (i + 1)).map SirenModule.entries).sum]? = some v ∧
      ∀ l w, ms[i] = .sine l w → ∃ z, l.forward u = .ok z ∧ v = z.map (fun a => Real.sin (w * a)) ∧
        (acts.map Prod.snd)[((ms.take (i + 1)).map SirenModule.entries).sum - 1]? = some (z.map fun a => w * a) := by
  obtain ⟨add, ha, hr⟩ := (recordLoop_spec ms 0 x [("input".toList, x)] (by
    intro k hk t c _
    rw [List.mem_singleton.1 hk]
    exact actKey_input t c)).2 y h
  refine ⟨_, ha, ?_, ?_, rfl, hr.last, ?_⟩
  · rw [List.length_append, hr.length]
    rfl
  · rw [List.map_append, List.nodup_append]
    refine ⟨by simp, hr.nodup, ?_⟩
    intro k hk k' hk' e
    obtain ⟨t, c, -, e'⟩ := hr.keys k' hk'
    rw [List.mem_singleton.1 hk] at e
    exact actKey_input t c (e.trans e')
  · intro i hi
    obtain ⟨u, v, h1, h2, h3, h4⟩ := hr.values i hi
    refine ⟨u, v, h1, h2, h3, fun l w e => ?_⟩
    obtain ⟨z, z1, z2⟩ := h4 l w e
    refine ⟨z, z1, ?_, z2⟩
    have step : ∀ (ms : List SirenModule) (m : SirenModule) (x : List ℝ), sirenCall (ms ++ [m]) x = (do let y ← sirenCall ms x; m.call y) := by
      intro ms
      induction ms with
      | nil =>
        intro m x
        show (do let y ← m.call x; sirenCall [] y) = m.call x
        cases m.call x <;> rfl
      | cons m' rest ih =>
        intro m x
        show (do let y ← m'.call x; sirenCall (rest ++ [m]) y) = (do let y ← (do let y ← m'.call x; sirenCall rest y); m.call y)
        cases m'.call x with
        | error e => rfl
        | ok x1 => exact ih m x1
    rw [List.take_succ_eq_append_getElem hi, step, h1, e] at h2
    have h2' : (SirenModule.sine l w).call u = .ok v := h2
    unfold SirenModule.call at h2'
    dsimp only at h2'
    rw [z1] at h2'
    cases h2'
    rfl

/-- C168: it fails exactly when the forward pass fails, with the same error. -/
theorem C168_errors (ms : List SirenModule) (x : List ℝ) (e : PyErr) : sirenActivations ms x = .error e ↔ sirenCall ms x = .error e := by
  obtain ⟨h1, h2⟩ := recordLoop_spec ms 0 x [("input".toList, x)] (by
    intro k hk t c _
    rw [List.mem_singleton.1 hk]
    exact actKey_input t c)
  refine ⟨fun h => ?_, h1 e⟩
  cases hc : sirenCall ms x with
  | error e' =>
    have := h1 e' hc
    unfold sirenActivations at h
    rw [h] at this
    cases this
    rfl
  | ok y =>
    obtain ⟨add, ha, -⟩ := h2 y hc
    unfold sirenActivations at h
    rw [h] at ha
    cases ha

/-- C168: the number of entries for the networks the constructor builds. -/
theorem C168_count (inF hiddenF hidden outF : ℕ) (outermostLinear : Bool) (actCls : Str) (act : ℝ → ℝ) (w1 w2 : ℝ) (w : NetWeights) {x y : List ℝ}
    (h : sirenCall (sirenModules inF hiddenF hidden outF outermostLinear actCls act w1 w2 w) x = .ok y) : ∃ acts,
    sirenActivations (sirenModules inF hiddenF hidden outF outermostLinear actCls act w1 w2 w) x = .ok acts ∧ acts.length = 2 * hidden + 5 ∧ (acts.map Prod.snd).getLast? = some y := by
  obtain ⟨acts, h1, h2, -, -, h5, -⟩ := C168_record h
  refine ⟨acts, h1, ?_, h5⟩
  rw [h2]
  have hs : ∀ n : ℕ, ((List.range n).map fun _ => 2).sum = 2 * n := by
    intro n
    simp [mul_comm]
  cases outermostLinear <;>
  · unfold sirenModules
    simp only [List.map_append, List.sum_append, List.map_map, List.map_cons, List.map_nil, Bool.false_eq_true, if_false, if_true]
    have e : ((List.range hidden).map (SirenModule.entries ∘ fun i => SirenModule.sine ⟨hiddenF, hiddenF, w.weight (i + 1), w.bias (i + 1)⟩ w2)).sum = 2 * hidden := hs hidden
    rw [e]
    simp [SirenModule.entries]
    omega

/-- the modules with the linear outermost layer are the network of Model/Nets.lean -/
theorem C168_same_network (inF hiddenF hidden outF : ℕ) (actCls : Str) (act : ℝ → ℝ) (w1 w2 : ℝ) (w : NetWeights) (x : List ℝ) :
    sirenCall (sirenModules inF hiddenF hidden outF true actCls act w1 w2 w) x = seqForward (sirenNet inF hiddenF hidden outF act w1 w2 w) x := by
  have app : ∀ (a b : List SirenModule) (x : List ℝ), sirenCall (a ++ b) x = (do let y ← sirenCall a x; sirenCall b y) := by
    intro a
    induction a with
    | nil => intro b x; rfl
    | cons m rest ih =>
      intro b x
      show (do let y ← m.call x; sirenCall (rest ++ b) y) = (do let y ← (do let y ← m.call x; sirenCall rest y); sirenCall b y)
      cases m.call x with
      | error e => rfl
      | ok x1 => exact ih b x1
  have app' : ∀ (a b : List ActLayer) (x : List ℝ), seqForward (a ++ b) x = (do let y ← seqForward a x; seqForward b y) := by
    intro a
    induction a with
    | nil => intro b x; rfl
    | cons m rest ih =>
      intro b x
      show (do let y ← m.forward x; seqForward (rest ++ b) y) = (do let y ← (do let y ← m.forward x; seqForward rest y); seqForward b y)
      cases m.forward x with
      | error e => rfl
      | ok x1 => exact ih b x1
  have sines : ∀ (L : List (Linear × ℝ)) (x : List ℝ), sirenCall (L.map fun e => .sine e.1 e.2) x = seqForward (L.map fun e => ⟨e.1, fun v => Real.sin (e.2 * v)⟩) x := by
    intro L
    induction L with
    | nil => intro x; rfl
    | cons e rest ih =>
      intro x
      show (do let y ← (SirenModule.sine e.1 e.2).call x; sirenCall (rest.map _) y) = (do let y ← (ActLayer.mk e.1 fun v => Real.sin (e.2 * v)).forward x; seqForward (rest.map _) y)
      have : (SirenModule.sine e.1 e.2).call x = (ActLayer.mk e.1 fun v => Real.sin (e.2 * v)).forward x := rfl
      rw [this]
      cases (ActLayer.mk e.1 fun v => Real.sin (e.2 * v)).forward x with
      | error e => rfl
      | ok x1 => exact ih x1
  have hs := sines ((⟨inF, hiddenF, w.weight 0, w.bias 0⟩, w1) :: (List.range hidden).map fun i : ℕ => (⟨hiddenF, hiddenF, w.weight (i + 1), w.bias (i + 1)⟩, w2)) x
  simp only [List.map_cons, List.map_map] at hs
  unfold sirenModules sirenNet
  rw [if_pos rfl, app, app']
  have e1 : [SirenModule.sine ⟨inF, hiddenF, w.weight 0, w.bias 0⟩ w1] ++ (List.range hidden).map (fun i : ℕ => SirenModule.sine ⟨hiddenF, hiddenF, w.weight (i + 1), w.bias (i + 1)⟩ w2)
      = SirenModule.sine ⟨inF, hiddenF, w.weight 0, w.bias 0⟩ w1 :: (List.range hidden).map ((fun e : Linear × ℝ => SirenModule.sine e.1 e.2) ∘ fun i : ℕ => (⟨hiddenF, hiddenF, w.weight (i + 1), w.bias (i + 1)⟩, w2)) := rfl
  rw [e1, hs]
  have e2 : [ActLayer.mk ⟨inF, hiddenF, w.weight 0, w.bias 0⟩ fun v => Real.sin (w1 * v)] ++ (List.range hidden).map (fun i : ℕ => ActLayer.mk ⟨hiddenF, hiddenF, w.weight (i + 1), w.bias (i + 1)⟩ fun v => Real.sin (w2 * v))
      = ActLayer.mk ⟨inF, hiddenF, w.weight 0, w.bias 0⟩ (fun v => Real.sin (w1 * v)) :: (List.range hidden).map ((fun e : Linear × ℝ => ActLayer.mk e.1 fun v => Real.sin (e.2 * v)) ∘ fun i : ℕ => (⟨hiddenF, hiddenF, w.weight (i + 1), w.bias (i + 1)⟩, w2)) := rfl
  rw [e2]
  cases seqForward _ x with
  | error e => rfl
  | ok x1 =>
    show (do let y ← Linear.forward _ x1; sirenCall [.act actCls act] y) = (do let y ← (do let y ← Linear.forward _ x1; Except.ok (y.map act)); seqForward [] y)
    cases Linear.forward ⟨hiddenF, outF, w.weight (hidden + 1), w.bias (hidden + 1)⟩ x1 <;> rfl

/-- a network with one input, one hidden layer of two neurons and one output, on a row that fits -/
example : ∃ y, sirenCall (sirenModules 1 2 1 1 true "Abs".toList abs 30 30 ⟨fun _ _ _ => 1, fun _ _ => 0⟩) [1] = .ok y ∧ y.length = 1 := ⟨_, rfl, rfl⟩

end Nidn
