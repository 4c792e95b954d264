import Verif.Model.Label
/-
The display definition shipped with the firmware: `content/display.py`.
-/
namespace PySwitch.DefaultDisplay
open PySwitch.Layout PySwitch.Label

/-- `content/display.py:97-103`: the area of the whole display. -/
def screen : Bounds := ⟨0, 0, 240, 240⟩

/-- `content/display.py:37-45, 46-54`: the labels at the top. -/
def header1 : Bounds := ⟨0, 0, 120, 40⟩
/-- `content/display.py:46-54`. -/
def header2 : Bounds := ⟨120, 0, 120, 40⟩

/-- `content/display.py:57-65, 66-74`: the labels at the bottom. -/
def footer1 : Bounds := ⟨0, 200, 120, 40⟩
/-- `content/display.py:66-74`. -/
def footer2 : Bounds := ⟨120, 200, 120, 40⟩

/-- `content/display.py:76-82`: the label for the rig name. -/
def rigName : Bounds := ⟨0, 40, 240, 160⟩

/-- `content/display.py:104-109`: the labels, in the order in which they are drawn. -/
def labels : List Bounds := [header1, header2, footer1, footer2, rigName]

/-- `content/display.py:10-13`: the labels for actions have a background with a stroke of 1 around it. -/
def stroke : Int := 1

/-- `content/display.py:110-117`: the dot for the state of the protocol, drawn last. -/
def dot : Bounds := dotBounds ⟨0, 40, 240, 160⟩

end PySwitch.DefaultDisplay
