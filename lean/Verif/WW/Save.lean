import Verif.Base.Crash
import Verif.WW.CutProps
/-!
# Saving a weight window over a file (C201)
-/
namespace F4Enix.WW
open F4Enix

/-- **C201 (partial: weight windows).** After a crash while a window is saved over a file, the path holds the old file, or a file that is refused, or a
file that is read as the new window, but perhaps for its very last weight. The other files are untouched. -/
theorem ww_crash_partial {f : NumFmt} {rg re : ℚ → ℚ} {r : ParseResult} (h : Writable f rg re r) {vss : List (List ℚ)} {v : List ℚ}
    {q : ℚ} (hv : r.values = vss ++ [v ++ [q]]) {text : Str} (hw : write f r = .ok text) {files d : Dict Str Str} {path : Str}
    (hd : CrashDisk files path text d) :
    (∀ k, k ≠ path → Dict.get? d k = Dict.get? files k) ∧
    (Dict.get? d path = Dict.get? files path ∨ ∃ t, Dict.get? d path = some t ∧
      ((∃ e, parse f t = .error e) ∨ ∃ w' x, w' ≠ [] ∧ w' <+: f.e q ∧ f.num w' = some x ∧ parse f t = .ok (withLast (rounded rg re r) x))) := by
  refine ⟨fun k hk => hd.others hk, ?_⟩
  rcases hd.at_path with h' | ⟨part, h1, h2⟩
  · exact Or.inl h'
  · refine Or.inr ⟨part, h2, ?_⟩
    obtain ⟨c1, c2⟩ := cut_refused_partial h hv hw h1
    rcases Nat.lt_or_ge (tokens part).length (tokens text).length with hl | hl
    · exact Or.inl (c1 hl)
    · exact c2 (Nat.le_antisymm (tokens_prefix_length h1) hl)

/-- **C201 fails.** Whatever file was there, and whatever window is saved over it: there is a crash after which the path holds neither the old file nor
one that can be read. -/
theorem ww_crash_lost (f : NumFmt) {text : Str} (files : Dict Str Str) (path : Str) :
    ∃ d, CrashDisk files path text d ∧ Dict.get? d path = some [] ∧ ∃ e, parse f [] = .error e :=
  ⟨_, .written [] (List.nil_prefix), by rw [Dict.get?_set, if_pos rfl], _, rfl⟩

/-- the hypotheses are met by the window of the examples of C198, saved over a file -/
example : ∃ text d, write pyFmt cutWindow = .ok text ∧ CrashDisk [("ww".toList, "old".toList)] "ww".toList text d ∧
    Dict.get? d "ww".toList = some [] := by
  obtain ⟨text, ht, -⟩ := c03_roundtrip pyFmt five five cutWindow (fits_writable cutWindow_fits)
  obtain ⟨d, h1, h2, -⟩ := ww_crash_lost pyFmt (text := text) [("ww".toList, "old".toList)] "ww".toList
  exact ⟨text, d, ht, h1, h2⟩

end F4Enix.WW
