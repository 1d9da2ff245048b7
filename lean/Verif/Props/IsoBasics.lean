import Verif.Model.IsoTime

/-!
# What the serialiser of time stamps can answer
-/

namespace Verif

theorem isoSer_ok {z : Zone} {ltz now : Int} {fmt : IsoFmt} {v r : Val} (h : isoSer z ltz now fmt v = .ok r) :
    ∃ t, r = .str t := by
  unfold isoSer at h
  repeat' split at h
  all_goals first
    | (cases h; exact ⟨_, rfl⟩)
    | (cases h)

theorem toIso_error {z : Zone} {ltz now i : Int} {fmt : IsoFmt} {e : Exc} (h : toIso z ltz now fmt i = .error e) :
    e = .valueError := by
  unfold toIso fromTimestamp at h
  by_cases h0 : i = 0
  · simp [h0] at h
  · by_cases hy : 1 ≤ (gmtime (i + z i)).year ∧ (gmtime (i + z i)).year ≤ 9999
    · simp [h0, hy] at h
    · simp only [h0, if_false, if_neg hy] at h
      cases h; rfl

theorem isoSer_error {z : Zone} {ltz now : Int} {fmt : IsoFmt} {v : Val} {e : Exc}
    (h : isoSer z ltz now fmt v = .error e) : e = .valueError := by
  unfold isoSer at h
  split at h
  all_goals first
    | (cases h; rfl)
    | skip
  all_goals split at h
  all_goals first
    | (cases h; rfl)
    | skip
  all_goals split at h
  all_goals first
    | (cases h; exact toIso_error ‹_›)
    | cases h

/-- a written time stamp is a text, -/
theorem timeStampSer_ok {v r : Val} (h : timeStampSer v = .ok r) : ∃ t, r = .str t := by
  unfold timeStampSer at h
  split at h
  · cases h
  · exact isoSer_ok h

/-- and a failure is a `ValueError`. -/
theorem timeStampSer_error {v : Val} {e : Exc} (h : timeStampSer v = .error e) : e = .valueError ∨ e = .unmodelled := by
  unfold timeStampSer at h
  split at h
  · cases h; exact .inr rfl
  · exact .inl (isoSer_error h)

end Verif
