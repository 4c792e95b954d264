import Verif.Model.Rigs
import Verif.Model.Num
/-
Model of the displays (label and switch LEDs) of the Kemper actions which select rigs and banks, in
`content/lib/pyswitch/clients/kemper/actions/`: `rig_select.py`, `bank_select.py`, `bank_up_down.py` and `rig_up_down.py`, and
of how they react together to presses, values from the device, page changes and the update tick. What they send is
`Model/Rigs.lean`.

Simplifications: each action has a label and uses the LEDs of its switch. The colors are shown with one of two brightnesses:
`dimmed` stands for `dim_color(…, displayDimFactorOff)`, `bright` for `ledBrightnessOn` (and not `ledBrightnessOff`). All
mappings used (`RIG_ID`, `BANK_SELECT`, `NEXT_BANK`, `PREVIOUS_BANK`) have the same response, so that they have the same value.
Display modes other than the two known raise an exception and are not modelled.
-/
namespace PySwitch.RigDisplay
open PySwitch PySwitch.Rigs

/-- The parameters of the actions for the display. `target` is the display mode `RIG_SELECT_DISPLAY_TARGET_RIG` (the other
one is `RIG_SELECT_DISPLAY_CURRENT_RIG`); an empty text is the same as none.
(`rig_select.py:58-104` and the constructors of the other callbacks.) -/
structure Look where
  target : Bool := true
  color : Option Color := none
  colorCallback : Option (Int → Int → Color) := none
  text : String := ""
  textCallback : Option (Int → Int → String) := none

/-- What a label shows. (`ui/elements.py:143-198`.) -/
structure Label where
  text : String
  color : Color
  dimmed : Bool
deriving Repr, DecidableEq

/-- What the LEDs of a switch show. (`controller/actions/__init__.py:76-118`.) -/
structure Led where
  color : Color
  bright : Bool
deriving Repr, DecidableEq

/-- `colors.py:4`. -/
def white : Color := ⟨255, 255, 255⟩

/-- `kemper/__init__.py:30-36` `BANK_COLORS`. -/
def bankColors : List Color := [⟨0, 0, 255⟩, ⟨255, 255, 0⟩, ⟨255, 0, 0⟩, ⟨100, 255, 100⟩, ⟨180, 0, 120⟩]

/-- `BANK_COLORS[bank % len(BANK_COLORS)]`. (`rig_select.py:296-319` and others.) -/
def bankColor (bank : Int) : Color := bankColors[(bank % 5).toNat]?.getD white

/-- The actions. (`rig_select.py`, `bank_select.py`, `bank_up_down.py`, `rig_up_down.py`.) -/
inductive Act where
  | rigSelect (c : RigSelect) (k : Look)
  | bankSelect (c : BankSelect) (k : Look)
  | bankChange (c : BankChange) (k : Look)
  | rigChange (c : RigChange) (k : Look)

/-- State of an action and its callback: the value of the mapping and `__sent_rig_mapping` (and for `rig_select.py` the data of
lines 78-104) are in `sel`, `lastBlink` is `rig_select.py:103`, `cache` is `__current_value` and `__last_state`
(`bank_select.py:71-72`), `label` and `led` are what is displayed now (`none`: nothing yet). -/
structure ActState where
  sel : SelState
  lastBlink : Option Bool := none
  cache : Option (Int × Bool) := none
  enabled : Bool := true
  label : Option Label := none
  led : Option Led := none
deriving Repr, DecidableEq

/-- The data of the application: `appl.shared`, with `blink` for `preselectBlinkState`.
(`controller.py:70-73` (`shared`).) -/
structure Env where
  shared : Shared := {}
  blink : Option Bool := none
deriving Repr, DecidableEq

/-! ## `rig_select.py` -/

/-- `rig_select.py:321-328` (and `rig_up_down.py:197-204`) `__get_text`. -/
def rigText (k : Look) (bank rig : Int) : String :=
  match k.textCallback with
  | some f => f bank rig
  | none => if k.text ≠ "" then k.text else "Rig " ++ toString (bank + 1) ++ "-" ++ toString (rig + 1)

/-- `rig_select.py:296-319` `__get_color`. -/
def rigSelectColor (c : RigSelect) (k : Look) (st : SelState) (sh : Shared) (v : Int) : Color :=
  match k.color with
  | some col => col
  | none =>
    match k.colorCallback with
    | some f => f (Int.tdiv v 5) (v % 5)
    | none =>
      match k.target, sh.preselectedBank with
      | true, some p => bankColor p
      | _, _ =>
        match c.bank with
        | none => bankColor (Int.tdiv v 5)
        | some b =>
          if k.target then
            match st.bankOff, c.state st with
            | some o, true => bankColor (o - 1)
            | _, _ => bankColor (b - 1)
          else bankColor (Int.tdiv v 5)

/-- `rig_select.py:255-278`: the bank and rig (from zero) shown in target mode. -/
def rigSelectTarget (c : RigSelect) (st : SelState) (sh : Shared) (v : Int) : Int × Int :=
  let currBank := Int.tdiv v 5
  let currRig := v % 5
  match sh.preselectedBank with
  | some p =>
    match c.rig with
    | some r => (p, r - 1)
    | none => (p, currRig)
  | none =>
    match c.bank with
    | some b =>
      match c.state st, st.rigOff, st.bankOff with
      | true, some ro, some bo => (bo - 1, ro - 1)
      | _, _, _ =>
        match c.rig with
        | some r => (b - 1, r - 1)
        | none => (b - 1, currRig)
    | none =>
      match c.state st, st.rigOff with
      | true, some ro => (currBank, ro - 1)
      | _, _ =>
        match c.rig with
        | some r => (currBank, r - 1)
        | none => (currBank, currRig)

/-- `rig_select.py:221-225` and 249-281: the label. -/
def rigSelectLabel (c : RigSelect) (k : Look) (st : SelState) (sh : Shared) : Label :=
  match st.value with
  | none => ⟨"", white, true⟩
  | some v =>
    let col := rigSelectColor c k st sh v
    if k.target then
      let t := rigSelectTarget c st sh v
      ⟨rigText k t.1 t.2, col, sh.preselectedBank.isSome || !c.state st⟩
    else ⟨rigText k (Int.tdiv v 5) (v % 5), col, true⟩

/-- `rig_select.py:227-229` and 283-293: the LEDs. -/
def rigSelectLed (c : RigSelect) (k : Look) (st : SelState) (e : Env) : Led :=
  match st.value with
  | none => ⟨white, false⟩
  | some v =>
    ⟨rigSelectColor c k st e.shared v,
      match e.shared.preselectedBank, e.blink with
      | some _, some bs => !bs
      | _, _ => k.target && c.state st⟩

/-! ## `bank_select.py` -/

/-- The part of the state used in `Model/Rigs.lean`. (No code of its own: a projection.) -/
def ActState.state (s : ActState) : State := ⟨s.sel.value, s.sel.sent⟩

/-- `bank_select.py:169-172` (with lines 80-86). -/
def bankIsCurrent (c : BankSelect) (e : Env) (v : Int) : Bool :=
  if c.preselect ∧ e.shared.preselectedBank = some (c.bank - 1) then e.blink.getD false
  else Int.tdiv v 5 = c.bank - 1

/-- `bank_select.py:229-242` `_get_bank_color`, and 184-189. -/
def bankSelectColor (c : BankSelect) (k : Look) (v : Int) : Color :=
  match k.color with
  | some col => col
  | none =>
    match k.colorCallback with
    | some f => f (Int.tdiv v 5) (v % 5)
    | none =>
      if k.target then
        match c.off with
        | some o => if Int.tdiv v 5 = c.bank - 1 then bankColor (o - 1) else bankColor (c.bank - 1)
        | none => bankColor (c.bank - 1)
      else bankColor (Int.tdiv v 5)

/-- `bank_select.py:220-226` `_get_text`. -/
def bankText (k : Look) (bank rig : Int) : String :=
  if k.text ≠ "" then k.text
  else
    match k.textCallback with
    | some f => f bank rig
    | none => "Bank " ++ toString (bank + 1)

/-- `bank_select.py:191-206`: the label. -/
def bankSelectLabel (c : BankSelect) (k : Look) (v : Int) (current : Bool) : Label :=
  let col := bankSelectColor c k v
  if k.target then
    ⟨match current, c.off with
      | true, some o => bankText k (o - 1) (v % 5)
      | _, _ => bankText k (c.bank - 1) (v % 5), col, !current⟩
  else ⟨bankText k (Int.tdiv v 5) (v % 5), col, true⟩

/-- `bank_select.py:208-217`: the LEDs. -/
def bankSelectLed (c : BankSelect) (k : Look) (v : Int) (current : Bool) : Led :=
  ⟨bankSelectColor c k v, k.target && current⟩

/-! ## `bank_up_down.py` -/

/-- `bank_up_down.py:190-198`: the color. -/
def bankChangeColor (c : BankChange) (k : Look) (sh : Shared) (v : Int) : Color :=
  match k.colorCallback with
  | some f => f (Int.tdiv v 5) (v % 5)
  | none =>
    match k.color with
    | some col => col
    | none => if k.target then bankColor (c.nextBank sh v) else bankColor (Int.tdiv v 5)

/-- `bank_up_down.py:175-179` and 200-213: the label. It is shown with the configured dim factor always. -/
def bankChangeLabel (c : BankChange) (k : Look) (st : SelState) (sh : Shared) : Label :=
  match st.value with
  | none => ⟨k.text, white, false⟩
  | some v =>
    ⟨match k.textCallback with
      | some f => if k.target then f (c.nextBank sh v) (v % 5) else f (Int.tdiv v 5) (v % 5)
      | none => k.text, bankChangeColor c k sh v, false⟩

/-- `bank_up_down.py:181-183` and 215-220: the LEDs, for the callback with number `n`. -/
def bankChangeLed (c : BankChange) (k : Look) (n : Nat) (st : SelState) (e : Env) : Led :=
  match st.value with
  | none => ⟨white, true⟩
  | some v =>
    ⟨bankChangeColor c k e.shared v,
      if c.preselect ∧ e.shared.preselectedBank.isSome ∧ e.shared.preselectCallback = some n then !e.blink.getD false else true⟩

/-! ## `rig_up_down.py` -/

/-- `rig_up_down.py:178-195` `_get_color`. -/
def rigChangeColor (c : RigChange) (k : Look) (v : Int) : Color :=
  match k.color with
  | some col => col
  | none =>
    match k.colorCallback with
    | some f => f (Int.tdiv v 5) (v % 5)
    | none => if k.target then bankColor (Int.tdiv (c.nextRig (v % 5) v) 5) else bankColor (Int.tdiv v 5)

/-- `rig_up_down.py:141-145` and 157-172: the label. -/
def rigChangeLabel (c : RigChange) (k : Look) (st : SelState) : Label :=
  match st.value with
  | none => ⟨"", ⟨50, 50, 50⟩, false⟩
  | some v =>
    let next := c.nextRig (v % 5) v
    ⟨if k.target then rigText k (Int.tdiv next 5) (next % 5) else rigText k (Int.tdiv v 5) (v % 5), rigChangeColor c k v, false⟩

/-- `rig_up_down.py:147-149` and 174-176: the LEDs. -/
def rigChangeLed (c : RigChange) (k : Look) (st : SelState) : Led :=
  match st.value with
  | none => ⟨white, true⟩
  | some v => ⟨rigChangeColor c k v, true⟩

/-! ## Drawing -/

/-- Shows a label and LEDs. LEDs are only written for enabled actions (`controller/actions/__init__.py:154-157`), labels always. -/
def ActState.show (s : ActState) (l : Label) (led : Led) : ActState :=
  { s with label := some l, led := if s.enabled then some led else s.led }

/-- `update_displays` of the callback (`rig_select.py:221-293`, `bank_select.py:159-217`, `bank_up_down.py:175-220`,
`rig_up_down.py:141-176`), for the action with number `n`. -/
def Act.draw (a : Act) (n : Nat) (e : Env) (s : ActState) : ActState :=
  match a with
  | .rigSelect c k =>
    let s := { s with sel := c.updateDisplays s.sel }
    s.show (rigSelectLabel c k s.sel e.shared) (rigSelectLed c k s.sel e)
  | .bankSelect c k =>
    match s.sel.value with
    | none => s.show ⟨"", white, true⟩ ⟨white, false⟩
    | some v =>
      let cur := bankIsCurrent c e v
      if s.cache = some (v, cur) then s
      else { s with cache := some (v, cur) }.show (bankSelectLabel c k v cur) (bankSelectLed c k v cur)
  | .bankChange c k => s.show (bankChangeLabel c k s.sel e.shared) (bankChangeLed c k n s.sel e)
  | .rigChange c k => s.show (rigChangeLabel c k s.sel) (rigChangeLed c k s.sel)

/-- `controller/actions/__init__.py:142-147` `Action.update_displays`. -/
def Act.display (a : Act) (n : Nat) (e : Env) (s : ActState) : ActState := if s.enabled then a.draw n e s else s

/-- `reset` of the callback: `rig_select.py:134-136`, `bank_up_down.py:170-173`, `bank_select.py:88-90`, and the empty one of
`rig_up_down.py` (`controller/callbacks/__init__.py:39`). -/
def Act.reset (a : Act) (n : Nat) (e : Env) (s : ActState) : ActState :=
  match a with
  | .rigSelect .. => a.display n e s
  | .bankChange .. => a.display n e s
  | .bankSelect .. => { s with cache := none }
  | .rigChange .. => s

/-! ## All actions together -/

/-- The actions and their common data. (No code of its own: all switches of a configuration, `controller.py:104-112`.) -/
structure Sys where
  env : Env := {}
  acts : List ActState
deriving Repr, DecidableEq

/-- What happens: a switch is pressed or released, the device reports its rig, the callback of an action is updated (`exceeded`:
the blink period has exceeded), an action is reset, or is enabled or disabled by a page change.
(No code of its own: the calls of `controller/inputs.py:71-154` and `controller.py:143-157`.) -/
inductive Event where
  | press (n : Nat)
  | release (n : Nat)
  | value (v : Int)
  | tick (n : Nat) (exceeded : Bool)
  | reset (n : Nat)
  | enable (n : Nat) (b : Bool)
deriving Repr, DecidableEq

/-- A change of one action. (No code of its own: a change of one action.) -/
def Sys.modify (s : Sys) (n : Nat) (f : ActState → ActState) : Sys := { s with acts := s.acts.modify n f }

/-- All enabled actions are drawn: `bank_select.py:123-126`. -/
def drawAll (as : List Act) (e : Env) (ss : List ActState) : List ActState :=
  ss.mapIdx fun n x =>
    match as[n]? with
    | some a => a.display n e x
    | none => x

/-- The response of the device: the mappings get the value and `controller/actions/__init__.py:16-18` draws the displays of the
enabled actions. -/
def receive (as : List Act) (e : Env) (v : Int) (ss : List ActState) : List ActState :=
  drawAll as e (ss.map fun x => { x with sel := { x.sel with value := some v } })

/-- `push` of the callback (`Model/Rigs.lean`) for the action with number `n`. Only enabled actions get pushes
(`controller/inputs.py`, see `Model/Switch.lean`). -/
def press (as : List Act) (s : Sys) (n : Nat) : Sys × List CC :=
  match as[n]?, s.acts[n]? with
  | some a, some x =>
    if x.enabled then
      match a with
      | .rigSelect c _ =>
        let r := c.push x.sel s.env.shared
        ({ env := { s.env with shared := r.2.1 }, acts := s.acts.set n { x with sel := r.1 } }, r.2.2)
      | .bankSelect c _ =>
        -- `bank_select.py:113-149`: the displays are drawn between the preselection and the end of it
        let r := { c with id := n }.push x.state s.env.shared
        let e := { s.env with shared := if c.preselect then r.2.1 else s.env.shared }
        let acts := if x.sel.value.isSome then drawAll as e s.acts else s.acts
        ({ env := { s.env with shared := r.2.1 },
           acts := acts.modify n fun y => { y with sel := { y.sel with sent := r.1.sent } } }, r.2.2)
      | .bankChange c _ =>
        let r := { c with id := n }.push x.state s.env.shared
        ({ s with env := { s.env with shared := r.2.1 } }, r.2.2)
      | .rigChange c _ =>
        let r := c.push x.state s.env.shared
        ({ env := { s.env with shared := r.2.1 }, acts := s.acts.set n { x with sel := { x.sel with sent := r.1.sent } } }, r.2.2)
    else (s, [])
  | _, _ => (s, [])

/-- `release` of the callback (`Model/Rigs.lean`). (`rig_select.py:194-208` and others.) -/
def release (as : List Act) (s : Sys) (n : Nat) : Sys × List CC :=
  match as[n]?, s.acts[n]? with
  | some a, some x =>
    match a with
    | .rigSelect c _ =>
      let r := c.release x.sel s.env.shared
      ({ env := { s.env with shared := r.2.1 }, acts := s.acts.set n { x with sel := r.1 } }, r.2.2)
    | .bankChange _ _ => (s, [])
    | _ =>
      let r := Rigs.release x.state
      ({ s with acts := s.acts.set n { x with sel := { x.sel with sent := r.1.sent } } }, r.2)
  | _, _ => (s, [])

/-- `update` of the callback: `rig_select.py:210-218`, `bank_select.py:106-111`, `bank_up_down.py:162-168`. (There is no check
whether the action is enabled.) -/
def tick (as : List Act) (s : Sys) (n : Nat) (exceeded : Bool) : Sys :=
  match as[n]?, s.acts[n]? with
  | some a, some x =>
    match a with
    | .rigSelect .. =>
      match s.env.shared.preselectedBank, s.env.blink with
      | some _, some bs =>
        if x.lastBlink ≠ some bs then { s with acts := s.acts.set n (a.draw n s.env { x with lastBlink := some bs }) } else s
      | _, _ => s
    | .bankSelect c _ =>
      if c.preselect ∧ s.env.shared.preselectedBank = some (c.bank - 1) ∧ exceeded then
        let e := { s.env with blink := some (!s.env.blink.getD false) }
        { env := e, acts := s.acts.set n (a.draw n e x) }
      else s
    | .bankChange c _ =>
      if c.preselect ∧ s.env.shared.preselectedBank.isSome ∧ s.env.shared.preselectCallback = some n ∧ exceeded then
        let e := { s.env with blink := some (!s.env.blink.getD false) }
        { env := e, acts := s.acts.set n (a.draw n e x) }
      else s
    | .rigChange .. => s
  | _, _ => s

/-- Any event, with the messages sent. For a page change, `Action.update` (`controller/actions/__init__.py:121-128`) is taken to
be executed before the next event. -/
def step (as : List Act) (s : Sys) : Event → Sys × List CC
  | .press n => press as s n
  | .release n => release as s n
  | .value v => ({ s with acts := receive as s.env v s.acts }, [])
  | .tick n x => (tick as s n x, [])
  | .reset n =>
    match as[n]?, s.acts[n]? with
    | some a, some x => ({ s with acts := s.acts.set n (a.reset n s.env x) }, [])
    | _, _ => (s, [])
  | .enable n b =>
    match as[n]?, s.acts[n]? with
    | some a, some x =>
      if x.enabled = b then (s, [])
      else ({ s with acts := s.acts.set n (a.display n s.env (a.reset n s.env { x with enabled := b })) }, [])
    | _, _ => (s, [])

/-- The action is in preselect mode. (`bank_select.py:75`, `bank_up_down.py:139-141`.) -/
def Act.preselect : Act → Bool
  | .bankSelect c _ => c.preselect
  | .bankChange c _ => c.preselect
  | _ => false

/-- A new action; `none` for the exception of `rig_select.py:75-76`. -/
def Act.init : Act → Option ActState
  | .rigSelect c _ => c.init.map fun sel => { sel }
  | _ => some { sel := { rigOff := none, bankOff := none } }

/-- The start: all actions are enabled and have been drawn once (first `Action.update`); the callbacks in preselect mode have
initialized the shared data (`bank_select.py:103-104`, `bank_up_down.py:139-141`). -/
def Sys.init (as : List Act) : Option Sys :=
  (as.mapM Act.init).map fun ss =>
    let e : Env := { blink := if as.any Act.preselect then some false else none }
    { env := e, acts := drawAll as e ss }

/-- A history of events. (No code of its own: a history of `step`.) -/
def run (as : List Act) (s : Sys) (es : List Event) : Sys := es.foldl (fun s e => (step as s e).1) s

end PySwitch.RigDisplay
