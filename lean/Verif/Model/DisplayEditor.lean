/-!
Model of the display editor (`web/htdocs/js/ui/editors/display/DisplayEditor.js`, `DisplayNode.js`, `DisplayParameterList.js`,
`DisplayNodePreview.js`, `DisplayNodePreviewDrag.js`, `types/*.js` there, and `web/htdocs/js/ui/parser/ParserFrontend.js`).

Simplifications: identity of the data nodes is a number. Positions and sizes are numbers in the source code (an expression is `NaN` in the
editor). Elements which can be selected have no `children`. An action which throws an exception has no effect, unless stated otherwise. Handlers
and the preview are left out, but for `usages`.
-/

namespace PySwitch.DisplayEditor

/-- The value of `bounds`. (`DisplayNode.js:227-245`.) -/
structure Bounds where
  x : Int
  y : Int
  w : Int
  h : Int
deriving DecidableEq

/-- The value of `layout`: a dictionary, which can be assigned to a variable. (`types/DisplayLabelTypeLayout.js:1-118`.) -/
structure Layout where
  assign : String
  args : List (String × String)
deriving DecidableEq

/-- A data node without its children. `assign` is empty if there is no assignment. (`DisplayNode.js:4-26`.) -/
structure Data where
  id : Nat
  name : String
  assign : String
  bounds : Option Bounds
  layout : Option Layout
  args : List (String × String)
  /-- Is there an argument `children`? -/
  container : Bool
deriving DecidableEq

/-- A data node. (`DisplayNode.js:119-129`.) -/
inductive Tree where
  | node (d : Data) (children : List Tree)

/-- The data of a node. -/
def Tree.data : Tree → Data
  | .node d _ => d

/-- The children of a node, `DisplayNode.js:122-129` `getChildrenRaw`. -/
def Tree.children : Tree → List Tree
  | .node _ c => c

mutual
/-- `DisplayNode.js:175-196` `flatten` (without options). -/
def Tree.flatten : Tree → List Data
  | .node d c => d :: flattenAll c
/-- The loop `DisplayNode.js:187-190`. -/
def flattenAll : List Tree → List Data
  | [] => []
  | t :: r => t.flatten ++ flattenAll r
end

mutual
/-- Changes the data of nodes in place. (JavaScript objects are changed by reference, as in `DisplayNode.js:259`.) -/
def Tree.modify (f : Data → Data) : Tree → Tree
  | .node d c => .node (f d) (modifyAll f c)
/-- `Tree.modify` for a list. (For `DisplayNode.js:259`.) -/
def modifyAll (f : Data → Data) : List Tree → List Tree
  | [] => []
  | t :: r => t.modify f :: modifyAll f r
end

mutual
/-- Changes lists of children in place. (For `DisplayNode.js:314, 336-337, 355-356, 395`.) -/
def Tree.rearrange (f : List Tree → List Tree) : Tree → Tree
  | .node d c => .node d (f (rearrangeAll f c))
/-- `Tree.rearrange` for a list. (For `DisplayNode.js:314, 336-337, 355-356, 395`.) -/
def rearrangeAll (f : List Tree → List Tree) : List Tree → List Tree
  | [] => []
  | t :: r => t.rearrange f :: rearrangeAll f r
end

/-- The node handler is the one of the data node with this id (`DisplayNode.js:113`). -/
def isNode (id : Nat) (t : Tree) : Bool := t.data.id == id

/-- `DisplayNode.js:308-321` `toFront`, for the list of siblings. (The sort of JavaScript is stable.) -/
def toFront (id : Nat) (siblings : List Tree) : List Tree := siblings.filter (!isNode id ·) ++ siblings.filter (isNode id)

/-- `DisplayNode.js:326-340` `moveDown`, for the list of siblings (lists without the node are not changed). -/
def moveDown (id : Nat) (siblings : List Tree) : List Tree :=
  match siblings.findIdx? (isNode id) with
  | none => siblings
  | some i =>
    if i = 0 then siblings else
    match siblings[i]?, siblings[i - 1]? with
    | some n, some p => (siblings.set i p).set (i - 1) n
    | _, _ => siblings

/-- `DisplayNode.js:345-359` `moveUp`, for the list of siblings (lists without the node are not changed). -/
def moveUp (id : Nat) (siblings : List Tree) : List Tree :=
  match siblings.findIdx? (isNode id) with
  | none => siblings
  | some i =>
    if i ≥ siblings.length - 1 then siblings else
    match siblings[i]?, siblings[i + 1]? with
    | some n, some p => (siblings.set i p).set (i + 1) n
    | _, _ => siblings

/-- `DisplayNode.js:389-396` `removeChild`, for the list of children. -/
def removeNode (id : Nat) (children : List Tree) : List Tree := children.filter (!isNode id ·)

/-- `Math.round`, for `DisplayNode.js:259`. -/
def round (x : Rat) : Int := (x + 1 / 2).floor

/-- `DisplayNode.js:250-269` `setModelBounds`. -/
def setModelBounds (x y w h : Rat) : Bounds :=
  ⟨round x, round y, round (if w ≥ 1 then w else 1), round (if h ≥ 1 then h else 1)⟩

/-- `types/DisplayLabelType.js:21-23`, `types/TunerDisplayType.js:21-23`, `types/BidirectionalProtocolStateType.js`, `DisplayNodeType.js:43-45`
`editable`. -/
def editable (d : Data) : Bool := d.name == "DisplayLabel" || d.name == "TunerDisplay" || d.name == "BidirectionalProtocolState"

/-- `types/DisplayLabelType.js:28-30`, `types/TunerDisplayType.js:28-30`, `DisplayNodeType.js:50-52` `resizable`. -/
def resizable (d : Data) : Bool := d.name == "DisplayLabel" || d.name == "TunerDisplay"

/-- `types/BidirectionalProtocolStateType.js:6-27` `setup` (the dot of the protocol state has a fixed size), and `setup` of the other types, which
does nothing. -/
def setupType (d : Data) : Data :=
  if d.name = "BidirectionalProtocolState" then
    match d.bounds with
    | none => d
    | some b =>
      if b.w = 8 ∧ b.h = 8 then d
      else { d with bounds := some (setModelBounds ((b.x + (b.w - 8) : Int) : Rat) (b.y : Rat) 8 8) }
  else d

/-- `DisplayEditor.js:244-257` and `types/DisplayLabelType.js:61-83`: the layout of a new label. -/
def defaultLayout : Layout := ⟨"", [("font", "\"/fonts/H20.pcf\""), ("backColor", "DEFAULT_LABEL_COLOR"), ("stroke", "1")]⟩

/-- `DisplayNode.js:531-556` `setType`. Without bounds, an exception is thrown after the name has been changed. -/
def setType (name : String) (d : Data) : Data :=
  if d.name = name then d else
  let d1 := { d with name := name }
  match d1.bounds with
  | none => d1
  | some _ => setupType { d1 with layout := if name = "DisplayLabel" then some defaultLayout else none, args := [] }

/-- Removes or sets an argument, as in `DisplayNode.js:507-524`: `none` is the default value. -/
def setArg (name : String) (value : Option String) (args : List (String × String)) : List (String × String) :=
  match value with
  | none => args.filter (·.1 ≠ name)
  | some v =>
    if args.any (·.1 = name) then args.map fun a => if a.1 = name then (name, v) else a
    else args ++ [(name, v)]

/-- Characters which are allowed in `DisplayParameterList.js:169`. -/
def allowedChar (c : Char) : Bool := c.isAlphanum || c == '_'

/-- `DisplayParameterList.js:167-179`: the name which is exported for an input. -/
def cleanName (text : String) : String :=
  String.ofList ((text.toList.map fun c => if allowedChar c then c else '_').dropWhile (· == '_'))

/-- `DisplayEditor.js:206-210`: the name for a new label. At most as many names are tried as fit in `fuel` (see `C126_new`: there are enough). -/
def freshName (names : List String) : Nat → Nat → String
  | 0, k => "DISPLAY_LABEL_" ++ toString k
  | fuel + 1, k =>
    if ("DISPLAY_LABEL_" ++ toString k) ∈ names then freshName names fuel (k + 1) else "DISPLAY_LABEL_" ++ toString k

/-- `DisplayEditor.js:212-260`: the new label. -/
def newLabel (id : Nat) (assign : String) : Data :=
  ⟨id, "DisplayLabel", assign, some ⟨0, 0, 100, 30⟩, some defaultLayout, [], false⟩

/-- The editor. (`DisplayEditor.js:4-24`.) -/
structure Editor where
  root : Tree
  /-- Name of the callback which provides the root (`this.splashes.name`). -/
  callback : String
  /-- The nodes with usages (`DisplayNode.js:48`). -/
  referenced : List Nat
  selected : Option Nat
  /-- Number of the next data node which is created. -/
  next : Nat

/-- `DisplayNode.js:73-76, 415-417`: the nodes whose exported name is used in the inputs. -/
def referencedNodes (used : List String) (root : Tree) : List Nat :=
  (root.flatten.filter fun d => d.assign ≠ "" ∧ d.assign ∈ used).map (·.id)

/-- `DisplayEditor.js:167-192` `reset`. -/
def Editor.reset (used : List String) (e : Editor) : Editor :=
  let root := e.root.modify setupType
  { e with root := root, selected := none, referenced := referencedNodes used root }

/-- `DisplayEditor.js:66-79` `init`. -/
def init (used : List String) (root : Tree) (callback : String) (next : Nat) : Editor :=
  Editor.reset used ⟨root, callback, [], none, next⟩

/-- What is done in the editor. -/
inductive Event where
  /-- Click on an element, `DisplayNodePreview.js:35-44`, or choosing it from the list, `DisplayParameters.js:41-54, 200-213`. -/
  | select (id : Nat)
  /-- The button for general settings, `DisplayParameters.js:56-66`. -/
  | deselect
  /-- Dragging, `DisplayNodePreviewDrag.js:40-47`, and the inputs for the position, `DisplayParameterList.js:193-224`. -/
  | place (x y : Rat)
  /-- Dragging a corner, `DisplayNodePreviewDrag.js:86-92`, and the inputs for the size, `DisplayParameterList.js:229-266`. -/
  | size (w h : Rat)
  /-- Start of dragging, `DisplayNodePreviewDrag.js:31-39, 77-85`. -/
  | toFront
  /-- The buttons for the depth, `DisplayParameterList.js:136-157`. -/
  | up
  /-- See above. -/
  | down
  /-- `DisplayParameterList.js:164-188`. -/
  | rename (text : String)
  /-- `DisplayParameterList.js:75-122`. -/
  | setType (name : String)
  /-- An argument like the scale, `types/DisplayLabelTypeParameterList.js:26-40`. `none` is the default. -/
  | argument (name : String) (value : Option String)
  /-- The inputs of the layout, `types/DisplayLabelTypeLayout.js:129-147`. `none` is an empty input. -/
  | layout (name : String) (value : Option String)
  /-- The link "Show PySwitch version on boot", `types/DisplayLabelTypeLayout.js:67-79`. -/
  | version
  /-- The add button, `DisplayParameters.js:68-77`. -/
  | create
  /-- The remove button (confirmed), `DisplayParameters.js:79-95`. -/
  | remove
  /-- A new callback, `DisplayEditor.js:108-141`. -/
  | callback (name : String)
deriving DecidableEq

/-- Changes the selected element. (For the functions cited at `Event`.) -/
def Editor.change (e : Editor) (f : Data → Data) : Editor :=
  match e.selected with
  | none => e
  | some id => { e with root := e.root.modify fun d => if d.id = id then f d else d }

/-- `DisplayNodePreviewDrag.js:40-47`, `DisplayParameterList.js:202-208, 216-222`. -/
def place (x y : Rat) (d : Data) : Data :=
  match d.bounds with
  | none => d
  | some b => { d with bounds := some (setModelBounds x y b.w b.h) }

/-- `DisplayNodePreviewDrag.js:69, 86-92`, `DisplayParameterList.js:241-247, 258-264`. Only labels and tuners can be resized
(`types/DisplayLabelTypeParameterList.js:14`, `types/TunerDisplayTypeParameterList.js`). -/
def resize (w h : Rat) (d : Data) : Data :=
  if resizable d then
    match d.bounds with
    | none => d
    | some b => { d with bounds := some (setModelBounds b.x b.y w h) }
  else d

/-- `types/DisplayLabelTypeLayout.js:101-118, 139-144`. -/
def setLayout (name : String) (value : Option String) (d : Data) : Data :=
  match d.layout with
  | none => d
  | some l => { d with layout := some ⟨"", setArg name value l.args⟩ }

/-- `types/DisplayLabelTypeLayout.js:69-74, 101-118`: here, the assignment is kept. -/
def setVersion (d : Data) : Data :=
  match d.layout with
  | none => d
  | some l => { d with layout := some { l with args := setArg "text" (some "f\"PySwitch { PYSWITCH_VERSION }\"") l.args } }

/-- One event. (See the citations at `Event`.) -/
def Editor.step (used : List String) (e : Editor) : Event → Editor
  | .select id => if e.root.flatten.any (fun d => d.id = id ∧ editable d) then { e with selected := some id } else e
  | .deselect => { e with selected := none }
  | .place x y => e.change (place x y)
  | .size w h => e.change (resize w h)
  | .toFront =>
    match e.selected with
    | none => e
    | some id => { e with root := e.root.rearrange (toFront id) }
  | .up =>
    match e.selected with
    | none => e
    | some id => { e with root := e.root.rearrange (moveUp id) }
  | .down =>
    match e.selected with
    | none => e
    | some id => { e with root := e.root.rearrange (moveDown id) }
  | .rename text =>
    match e.selected with
    | none => e
    | some id => if id ∈ e.referenced then e else e.change fun d => { d with assign := cleanName text }
  | .setType name => e.change (setType name)
  | .argument name value => e.change fun d => { d with args := setArg name value d.args }
  | .layout name value => e.change (setLayout name value)
  | .version => e.change setVersion
  | .create => -- `DisplayEditor.js:205-266`; without `children`, `DisplayNode.js:372` throws
    if e.root.data.container then
      let names := e.root.flatten.map (·.assign)
      let label := newLabel e.next (freshName names names.length 1)
      let e1 := { e with root := Tree.node e.root.data (e.root.children ++ [Tree.node label []]), next := e.next + 1 }
      { e1.reset used with selected := some e.next }
    else e
  | .remove =>
    match e.selected with
    | none => e
    | some id =>
      if id = e.root.data.id then e.reset used
      else if id ∈ e.referenced then e
      else Editor.reset used { e with root := e.root.rearrange (removeNode id) }
  | .callback name => if e.callback = name then e else Editor.reset used { e with callback := name }

/-- Some events. (No code of its own.) -/
def Editor.run (used : List String) (e : Editor) (events : List Event) : Editor := events.foldl (Editor.step used) e

/-- `DisplayNode.js:445-473` `#checkAssignmentExists`: are there errors? (The other messages, `DisplayNode.js:478-490`, are no errors.) -/
def hasErrors (root : Tree) (d : Data) : Bool :=
  d.assign == "Splashes" || root.flatten.any fun o => o.id != d.id && d.assign != "" && o.assign == d.assign

/-- `ParserFrontend.js:44-47`, `DisplayEditor.js:301-303`, `DisplayNode.js:431-440` `getMessagesDeep`: can the changes be applied? -/
def Editor.canApply (e : Editor) : Bool :=
  !hasErrors e.root e.root.data && (e.root.children.map Tree.data).all fun d => !hasErrors e.root d

/-- What `JSON.stringify` makes of a node (for `DisplayEditor.js:309`): its data (without the number which stands for identity), its children, and
the end. -/
inductive Token where
  | start (d : Data)
  | stop
deriving DecidableEq

mutual
/-- `JSON.stringify` for `DisplayEditor.js:309`. -/
def Tree.json : Tree → List Token
  | .node d c => .start { d with id := 0 } :: (jsonAll c ++ [.stop])
/-- `JSON.stringify` for `DisplayEditor.js:309`, for a list. -/
def jsonAll : List Tree → List Token
  | [] => []
  | t :: r => t.json ++ jsonAll r
end

/-- `DisplayEditor.js:308-310` `isDirty`. -/
def Editor.isDirty (saved : Tree) (e : Editor) : Bool := saved.json != e.root.json

/-- `web/htdocs/python/parser/misc/CodeGenerator.py:112-129`: in the generated file, an assigned layout has the value which was generated for
this name last. -/
def generatedLayout (root : Tree) (l : Layout) : List (String × String) :=
  if l.assign = "" then l.args
  else
    match (root.flatten.filterMap (·.layout)).reverse.find? (·.assign = l.assign) with
    | some l' => l'.args
    | none => l.args

end PySwitch.DisplayEditor
