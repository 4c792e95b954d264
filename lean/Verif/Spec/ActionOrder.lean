import Verif.Model.ActionOrder
/-!
The order of texts, and of the groups of actions.
-/
namespace PySwitch.ActionOrder.Spec
open PySwitch.ActionOrder
open PySwitch.Properties (Text lit)

/-- The place of a character in the alphabet: the underscore, then digits, then letters, capital or small. -/
def place (c : Char) : Option Nat := ['_', '0', '1', '2', '3', '4', '5', '6', '7', '8', '9', 'a', 'b', 'c', 'd', 'e', 'f', 'g', 'h', 'i', 'j', 'k', 'l', 'm', 'n', 'o', 'p', 'q', 'r', 's', 't', 'u', 'v', 'w', 'x', 'y', 'z'].findIdx? (· = c.toLower)

/-- What is used of the comparison of texts of the browser: it is an order, the first characters which have different places in the alphabet decide, and a text comes before its continuations. -/
structure Collation (le : Text → Text → Bool) : Prop where
  total : ∀ a b, (le a b || le b a) = true
  trans : ∀ a b c, le a b = true → le b c = true → le a c = true
  first : ∀ (p s t : Text) (x y : Char) (i j : Nat), place x = some i → place y = some j → i < j → le (p ++ y :: t) (p ++ x :: s) = false
  shorter : ∀ (p s : Text) (x : Char) (i : Nat), place x = some i → le (p ++ x :: s) p = false

/-- In the list, all occurrences of `a` are before all of `b`. -/
def Before (list : List Action) (a b : Action) : Prop := ∀ i j : Nat, list[i]? = some a → list[j]? = some b → i < j

/-- The group of an action: its category in the metadata, `none` if it has none there. -/
def group (a : Action) : Text := if a.data = [] then lit "none" else a.data

/-- The groups of the actions for the Kemper, in the order of the list. -/
def kemperGroups : List Text := [lit "rig", lit "amp", lit "bank", lit "effects", lit "tuner", lit "none", lit "morph", lit "other", lit "tempo", lit "looper"]

/-- The general actions which are at the end of the list of their client, in this order, by groups. -/
def general : List (List Text) := [[lit "BINARY_SWITCH", lit "EncoderAction", lit "AnalogAction"], [lit "PARAMETER_UP_DOWN"], [lit "HID_KEYBOARD"], [lit "ENCODER_BUTTON"], [lit "CUSTOM_MESSAGE"],
  [lit "ROTATING_MESSAGES"], [lit "PagerAction", lit "PagerAction.proxy"]]

end PySwitch.ActionOrder.Spec
