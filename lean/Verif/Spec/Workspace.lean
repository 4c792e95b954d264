import Verif.Model.Workspace
/-
Words for the properties of the work on a configuration in the editor (C127, C128, C129).
-/
namespace PySwitch.Workspace

/-- The text in a code editor which the user has not applied yet. -/
def State.unapplied (s : State) (t : Tab) : Option String :=
  match s.editor t with
  | some e => if e.dirty then some e.text else none
  | none => none

/-- The files of the current configuration, if they have changes which are not saved. -/
def State.unsaved (s : State) : Option Files :=
  match s.config with
  | some c => if c.dirty then some c.files else none
  | none => none

/-- The files of the current configuration. -/
def State.files (s : State) : Option Files := s.config.map (·.files)

/-- The user agrees to discard everything that would get lost. -/
def State.agreed (s : State) (answer : Question → Bool) : Prop :=
  (∀ t, s.unapplied t ≠ none → answer (.discard t) = true) ∧ (s.unsaved ≠ none → answer .unsaved = true)

/-- The current configuration is the one of the local folder. -/
def State.inFolder (s : State) : Prop := ∃ c, s.config = some c ∧ c.place = .folder

/-- The events which discard the text of an editor without a question: the page shows the configuration again after any
other change of it, or after a change of the settings, the browser goes back, or the folder is opened again while it is
the current configuration. -/
inductive Discards (s : State) (t : Tab) : Ev → Prop
  | other (t' : Tab) (h : t' ≠ t) : Discards s t (.apply t')
  | edit (f : Files) : Discards s t (.edit f)
  | restart : Discards s t .restart
  | upload (i d : Option String) : Discards s t (.upload i d)
  | navigate (p : Place) : Discards s t (.navigate p)
  | openFolder (dir : Nat) (answer : Question → Bool) (h : s.inFolder) : Discards s t (.openFolder dir answer)
  | saveFolder (dir : Nat) (answer : Question → Bool) (w : Written) (h : s.inFolder) :
      Discards s t (.saveFolder dir answer w)
  | folderChanged (dir : Nat) (f : Files) (answer : Question → Bool) (h : s.inFolder) :
      Discards s t (.folderChanged dir f answer)

/-- The events which discard the changes of a configuration without a question. -/
inductive Drops (s : State) : Ev → Prop
  | navigate (p : Place) : Drops s (.navigate p)
  | openFolder (dir : Nat) (answer : Question → Bool) (h : s.inFolder) : Drops s (.openFolder dir answer)
  | folderChanged (dir : Nat) (f : Files) (answer : Question → Bool) (h : s.inFolder) :
      Drops s (.folderChanged dir f answer)

/-- The events by which the user changes the configuration itself. -/
inductive Changes : Ev → Prop
  | apply (t : Tab) : Changes (.apply t)
  | edit (f : Files) : Changes (.edit f)
  | upload (i d : Option String) : Changes (.upload i d)

/-- The files at a place, as they are. -/
def stored (st : Store) : Place → Option Files
  | .web _ => none
  | .preset id => getPreset st.presets id
  | .device port => st.devices port
  | .folder => st.handle.bind st.folders

/-- The events which may write a preset. -/
inductive WritesPreset (s : State) (id : String) : Ev → Prop
  | save (w : Written) (c : Config) (h : s.config = some c) (hp : c.place = .preset id) : WritesPreset s id (.save w)
  | savePreset (answer : Question → Bool) (w : Written) (h : answer (.overwrite id) = true) :
      WritesPreset s id (.savePreset id answer w)
  | saveNew (names : List String) (answer : Question → Bool) (w : Written) (h : id ∈ names)
      (hn : getPreset s.store.presets id = none) : WritesPreset s id (.saveNewPreset names answer w)
  | delete (answer : Question → Bool) (h : answer (.delete id) = true) : WritesPreset s id (.deletePreset id answer)
  | renameFrom (new : String) : WritesPreset s id (.renamePreset id new)
  | renameTo (old : String) : WritesPreset s id (.renamePreset old id)

/-- The events which may write the files of a controller. -/
inductive WritesDevice (s : State) (port : String) : Ev → Prop
  | save (w : Written) (c : Config) (h : s.config = some c) (hp : c.place = .device port) : WritesDevice s port (.save w)
  | saveDevice (confirm : Bool) (answer : Question → Bool) (w : Written)
      (h : confirm = true → answer (.saveTo port) = true) : WritesDevice s port (.saveDevice port confirm answer w)

/-- The events which may write the files of a folder. -/
inductive WritesFolder (s : State) (dir : Nat) : Ev → Prop
  | save (w : Written) (h : s.inFolder) (hd : s.store.handle = some dir) : WritesFolder s dir (.save w)
  | saveFolder (answer : Question → Bool) (w : Written) : WritesFolder s dir (.saveFolder dir answer w)
  | folderChanged (f : Files) (answer : Question → Bool) : WritesFolder s dir (.folderChanged dir f answer)

end PySwitch.Workspace
