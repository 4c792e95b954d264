import Verif.Model.Tabs
/-!
What the user sees of the tabs, independently of the implementation.
-/
namespace PySwitch.Tabs.Spec
open PySwitch.Tabs

/-- The tabs whose contents are displayed. -/
def displayed (s : State) : List Nat := (s.tabs.filter fun t => t.shown).map Tab.key

/-- The tabs which are highlighted. -/
def highlighted (s : State) : List Nat := (s.tabs.filter fun t => t.marked).map Tab.key

/-- Starting the application: tabs are added. -/
def adds (names : List String) : List Ev := names.map Ev.add

end PySwitch.Tabs.Spec
