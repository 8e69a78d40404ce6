import Verif.Base.Dict
import Verif.Base.Text
/-!
# The disk after a crash

Every writer of the package opens the file with mode `"w"` and then writes to it: d1suned.py:237 and 673, ww_parser.py:314, MCNPinput.py:854,
meshinfo.py:253 and 403, fmesh.py:546, 574 and 591, xsdirpyne.py:297. Opening empties the file; what is written reaches the disk in order.
-/
namespace F4Enix

/-- the disk when a save of `text` to `path` is interrupted: the file was not opened yet, or it was emptied and holds what was written so far
(Python, specification) -/
inductive CrashDisk (files : Dict Str Str) (path text : Str) : Dict Str Str → Prop
  | before : CrashDisk files path text files
  | written (part : Str) (h : part <+: text) : CrashDisk files path text (Dict.set files path part)

/-- a crash leaves the other files alone -/
theorem CrashDisk.others {files d : Dict Str Str} {path text k : Str} (h : CrashDisk files path text d) (hk : k ≠ path) :
    Dict.get? d k = Dict.get? files k := by
  cases h with
  | before => rfl
  | written part _ => rw [Dict.get?_set, if_neg (fun e => hk e.symm)]

/-- a crash leaves at the path the old file or a part of the new one -/
theorem CrashDisk.at_path {files d : Dict Str Str} {path text : Str} (h : CrashDisk files path text d) :
    Dict.get? d path = Dict.get? files path ∨ ∃ part, part <+: text ∧ Dict.get? d path = some part := by
  cases h with
  | before => exact Or.inl rfl
  | written part hp => exact Or.inr ⟨part, hp, by rw [Dict.get?_set, if_pos rfl]⟩

end F4Enix
