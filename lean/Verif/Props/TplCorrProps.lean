import Verif.Model.TplCorr
import Verif.Props.TplRatioAmp

set_option linter.unusedVariables false
set_option linter.unusedSectionVars false
set_option linter.unusedSimpArgs false

/-! # C96 in a run: the `tplCorr` line ratio never completes when a line is fitted -/

namespace Amazed
namespace TplCorr

variable {K : Type} [Field K] [LinearOrder K] [IsStrictOrderedRing K]

theorem fill_nil (mask : List Bool) (best : List K) : ∀ (n k : Nat) (v : List K), Res.foldN (fun i v => Res.at_ mask i >>= fun m => if m then Res.at_ best i >>= fun x => write v i x else .ok v) k n [] = .ok v → v = []
  | 0, k, v, h => (Res.ok.inj h).symm
  | n + 1, k, v, h => by
    have e : Res.foldN (fun i v => Res.at_ mask i >>= fun m => if m then Res.at_ best i >>= fun x => write v i x else .ok v) k (n + 1) ([] : List K) = ((Res.at_ mask k >>= fun m => if m then Res.at_ best k >>= fun x => write [] k x else .ok []) >>= fun s => Res.foldN (fun i v => Res.at_ mask i >>= fun m => if m then Res.at_ best i >>= fun x => write v i x else .ok v) (k + 1) n s) := rfl
    rw [e] at h
    obtain ⟨s, h1, h2⟩ := Res.bind_eq_ok.1 h
    obtain ⟨m, h3, h4⟩ := Res.bind_eq_ok.1 h1
    cases m with
    | true =>
      rw [if_pos rfl] at h4
      obtain ⟨x, _, h5⟩ := Res.bind_eq_ok.1 h4
      unfold write at h5
      rw [if_neg (by simp)] at h5
      exact nomatch h5
    | false =>
      rw [if_neg (by decide)] at h4
      cases h4
      exact fill_nil mask best n (k + 1) v h2

/-- When `GetBestFit` returns, the vector of corrected amplitudes is empty, whatever the catalogs. -/
theorem corrected_nil (kept : List (Kept K)) (b : Option (Nat × K × List K)) (w v : List K) (h : corrected kept b w = .ok v) : v = [] := by
  unfold corrected at h
  cases b with
  | none => exact (Res.ok.inj h).symm
  | some b => exact fill_nil _ _ _ _ _ h

/-- **C96 in a run.** `computeMerit` of `tplCorr` returns exactly when no line of the catalog has an element and is in range, and then it changes nothing: no corrected amplitude is ever
produced, for any amplitudes, errors, catalogs and elements. -/
theorem C96_tplcorr_never_returns_partial (ls : List (Seen K)) (tpls : List (List K)) (es es' : List (Amp.Elt K)) :
    computeMerit ls tpls es = .ok es' ↔ (∀ s ∈ ls, s.elt = none ∨ s.outside = true) ∧ es' = es := by
  have key : ls.filterMap keep = [] ↔ ∀ s ∈ ls, s.elt = none ∨ s.outside = true := by
    rw [List.filterMap_eq_nil_iff]
    refine forall₂_congr fun s _ => ?_
    unfold keep
    cases h : s.elt with
    | none => simp
    | some p => cases h2 : s.outside <;> simp
  constructor
  · intro h
    unfold computeMerit at h
    simp only at h
    cases hk : ls.filterMap keep with
    | nil =>
      rw [hk, if_pos rfl, Res.bind_ok] at h
      refine ⟨key.1 hk, ?_⟩
      exact (Res.ok.inj h).symm
    | cons k ks =>
      exfalso
      rw [hk] at h
      obtain ⟨b, _, h1⟩ := Res.bind_eq_ok.1 h
      obtain ⟨cor, hc, h2⟩ := Res.bind_eq_ok.1 h1
      have hc0 := corrected_nil _ _ _ _ hc
      subst hc0
      have e : Res.foldN (fun i es => Res.at_ (k :: ks) i >>= fun k => apply ([] : List K) k i es) 0 (k :: ks).length es = (apply ([] : List K) k 0 es >>= fun s => Res.foldN (fun i es => Res.at_ (k :: ks) i >>= fun k => apply ([] : List K) k i es) 1 ks.length s) := rfl
      rw [e] at h2
      obtain ⟨s, h3, _⟩ := Res.bind_eq_ok.1 h2
      unfold apply at h3
      obtain ⟨_, _, h3⟩ := Res.bind_eq_ok.1 h3
      obtain ⟨_, _, h3⟩ := Res.bind_eq_ok.1 h3
      obtain ⟨_, h4, _⟩ := Res.bind_eq_ok.1 h3
      exact nomatch h4
  · rintro ⟨h, rfl⟩
    unfold computeMerit
    simp only
    rw [key.2 h, if_pos rfl]
    rfl

/-- No exception. -/
def NT {α : Type} (r : Res α) : Prop := ∀ e, r ≠ .throw e

theorem nt_ok {α : Type} (a : α) : NT (.ok a : Res α) := fun _ h => nomatch h
theorem nt_ub {α : Type} : NT (.ub : Res α) := fun _ h => nomatch h

theorem nt_bind {α β : Type} {x : Res α} {f : α → Res β} (h : NT x) (hf : ∀ a, NT (f a)) : NT (x >>= f) := by
  cases x with
  | ok a => exact hf a
  | throw e => exact absurd rfl (h e)
  | ub => exact nt_ub

theorem nt_at {α : Type} (l : List α) (i : Nat) : NT (Res.at_ l i) := by
  unfold Res.at_
  cases l[i]? with
  | none => exact nt_ub
  | some a => exact nt_ok a

theorem nt_foldN {σ : Type} (f : Nat → σ → Res σ) (hf : ∀ i s, NT (f i s)) : ∀ (n k : Nat) (s : σ), NT (Res.foldN f k n s)
  | 0, k, s => nt_ok s
  | n + 1, k, s => nt_bind (hf k s) fun s' => nt_foldN f hf n (k + 1) s'

theorem nt_tab {α : Type} (g : Nat → Res α) (hg : ∀ i, NT (g i)) (n : Nat) : NT (Res.tab g n) := by
  induction n with
  | zero => exact nt_ok _
  | succ n ih => exact nt_bind ih fun l => nt_bind (hg n) fun a => nt_ok _

theorem nt_sums : ∀ (a b c : List K), NT (TplRatio.fitSums a b c)
  | [], _, _ => nt_ok _
  | a :: as, e :: es, t :: ts => by
    unfold TplRatio.fitSums
    split
    · exact nt_ub
    · exact nt_bind (nt_sums as es ts) fun _ => nt_ok _
  | _ :: _, [], _ => nt_ub
  | _ :: _, _ :: _, [] => nt_ub

theorem nt_best (amps errs : List K) : ∀ (i : Nat) (ts : List (List K)) (b : Option (Nat × K × List K)), NT (TplRatio.bestFrom amps errs i ts b)
  | i, [], b => nt_ok _
  | i, t :: ts, b => by
    unfold TplRatio.bestFrom
    refine nt_bind ?_ fun f => nt_best amps errs (i + 1) ts _
    unfold TplRatio.fitValue
    refine nt_bind (nt_sums _ _ _) fun s => ?_
    split <;> exact nt_ok _

theorem nt_div (a b : Option K) : NT (Amp.vDiv a b) := by
  unfold Amp.vDiv
  cases a <;> cases b <;> try exact nt_ok _
  dsimp only
  split
  · split
    · exact nt_ok _
    · exact nt_ub
  · exact nt_ok _

theorem nt_set (e : Amp.Elt K) (a s : Option K) : NT (Amp.setAmplitude e a s) := by
  unfold Amp.setAmplitude
  split
  · exact nt_ok _
  · refine nt_bind (nt_tab _ (fun i => nt_bind (nt_at _ _) fun o => ?_) _) fun l => nt_ok _
    split
    · exact nt_ok _
    · exact nt_bind (nt_at _ _) fun _ => nt_ok _

/-- **C96 in a run: undefined.** As soon as one line of the catalog has an element and is in range, `computeMerit` of `tplCorr` has undefined behaviour, for any amplitudes, errors,
catalogs and elements; and it is defined, and does nothing, when there is no such line. -/
theorem C96_tplcorr_undefined_partial (ls : List (Seen K)) (tpls : List (List K)) (es : List (Amp.Elt K)) :
    computeMerit ls tpls es = .ub ↔ ∃ s ∈ ls, s.elt ≠ none ∧ s.outside = false := by
  have nt : NT (computeMerit ls tpls es) := by
    unfold computeMerit
    refine nt_bind ?_ fun b => nt_bind ?_ fun cor => nt_foldN _ (fun i es => nt_bind (nt_at _ _) fun k => ?_) _ _ _
    · split
      · exact nt_ok _
      · exact nt_best _ _ _ _ _
    · unfold corrected
      cases b with
      | none => exact nt_ok _
      | some b =>
        refine nt_foldN _ (fun i v => nt_bind (nt_at _ _) fun m => ?_) _ _ _
        cases m with
        | true =>
          refine nt_bind (nt_at _ _) fun x => ?_
          unfold write
          split
          · exact nt_ok _
          · exact nt_ub
        | false => exact nt_ok _
    · unfold apply
      exact nt_bind (nt_at _ _) fun _ => nt_bind (nt_at _ _) fun _ => nt_bind (nt_at _ _) fun _ => nt_bind (nt_div _ _) fun _ => nt_bind (nt_set _ _ _) fun _ => nt_ok _
  constructor
  · intro h
    apply Classical.byContradiction
    intro hn
    have : computeMerit ls tpls es = .ok es := (C96_tplcorr_never_returns_partial ls tpls es es).2 ⟨fun s hs => by
      apply Classical.byContradiction
      intro hc
      exact hn ⟨s, hs, fun h1 => hc (.inl h1), by
        cases h2 : s.outside with
        | true => exact absurd (.inr h2) hc
        | false => rfl⟩, rfl⟩
    rw [this] at h
    exact nomatch h
  · rintro ⟨s, hs, h1, h2⟩
    cases hr : computeMerit ls tpls es with
    | ub => rfl
    | throw e => exact absurd hr (nt e)
    | ok x =>
      rcases ((C96_tplcorr_never_returns_partial ls tpls es x).1 hr).1 s hs with h | h
      · exact absurd h h1
      · rw [h2] at h; exact nomatch h

/-- What the last loop would do with a corrected amplitude `c` of a line of nominal amplitude `nom`: the amplitude of the element becomes `c / nom`, so that the line itself gets `c`. -/
theorem C96_tplcorr_ratio (cor : List K) (k : Kept K) (i : Nat) (es es' : List (Amp.Elt K)) (h : apply cor k i es = .ok es') :
    ∃ (e : Amp.Elt K) (nom c : K), es[k.elt]? = some e ∧ e.nominal[k.line]? = some nom ∧ cor[i]? = some c ∧
      (nom ≠ 0 → ∃ e', Amp.setAmplitude e (some (c / nom)) (some k.std) = .ok e' ∧ es' = es.set k.elt e') := by
  unfold apply at h
  obtain ⟨e, h1, h⟩ := Res.bind_eq_ok.1 h
  obtain ⟨nom, h2, h⟩ := Res.bind_eq_ok.1 h
  obtain ⟨c, h3, h⟩ := Res.bind_eq_ok.1 h
  obtain ⟨a, h4, h⟩ := Res.bind_eq_ok.1 h
  obtain ⟨e', h5, h⟩ := Res.bind_eq_ok.1 h
  refine ⟨e, nom, c, Res.at_eq_ok.1 h1, Res.at_eq_ok.1 h2, Res.at_eq_ok.1 h3, fun hn => ⟨e', ?_, (Res.ok.inj h).symm⟩⟩
  unfold Amp.vDiv at h4
  simp only at h4
  rw [if_neg hn] at h4
  rw [Res.ok.inj h4]
  exact h5

/-- Two lines in range with unit errors and one catalog; and the same lines out of range. -/
example : computeMerit (K := ℚ) [⟨some (0, 0), false, 2, 1⟩, ⟨some (0, 1), false, 5, 1⟩] [[1, 2]]
    [⟨[⟨"Halpha", .strong⟩, ⟨"Hbeta", .weak⟩], .emission, true, [1, 2], [some 2, some 5], [some 1, some 1], 0, false, [false, false], false, [false, false]⟩] = .ub := by
  decide +kernel

example : computeMerit (K := ℚ) [⟨some (0, 0), true, 2, 1⟩, ⟨none, false, 5, 1⟩] [[1, 2]] [] = .ok [] := by
  decide +kernel

end TplCorr
end Amazed
