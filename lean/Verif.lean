import Verif.Props.Misc
import Verif.Props.Wire
import Verif.Props.Routing
import Verif.Props.Loop
import Verif.Props.Switch
import Verif.Props.Mapping
import Verif.Props.Client
import Verif.Props.ClientBi
import Verif.Props.KemperProtocol
import Verif.Props.PushButton
import Verif.Props.Leds
import Verif.Props.Binary
import Verif.Props.Analog
import Verif.Props.Encoder
import Verif.Props.Preview
import Verif.Props.Rigs
import Verif.Props.Effects
import Verif.Props.Local
import Verif.Props.Layout
import Verif.Props.Display
import Verif.Props.Label
import Verif.Props.Tuner
import Verif.Props.Explore
import Verif.Props.Measure
import Verif.Props.Morph
import Verif.Props.Table
import Verif.Props.EffectButton
import Verif.Props.LabelText
import Verif.Props.Tempo
import Verif.Props.RigDisplay
import Verif.Props.Button
import Verif.Props.ButtonLoop
import Verif.Props.Boomerang
import Verif.Props.Foreign
import Verif.Props.Thru
import Verif.Props.EncoderButton
import Verif.Props.Wheel
import Verif.Props.Convert
import Verif.Model.Devices
import Verif.Spec.Devices
import Verif.Lemmas.Devices
import Verif.Props.Devices
import Verif.Model.DefaultDisplay
import Verif.Props.DefaultDisplay
import Verif.Model.Editor
import Verif.Spec.Editor
import Verif.Lemmas.Editor
import Verif.Props.Editor
import Verif.Props.EditorOrder
import Verif.Model.Imports
import Verif.Spec.Imports
import Verif.Props.Imports
import Verif.Model.Simple
import Verif.Spec.Simple
import Verif.Props.Simple
import Verif.Model.Stats
import Verif.Spec.Stats
import Verif.Props.Stats
import Verif.Model.Startup
import Verif.Spec.Startup
import Verif.Props.Startup
import Verif.Model.Virtual
import Verif.Spec.Virtual
import Verif.Lemmas.Virtual
import Verif.Lemmas.VirtualRecover
import Verif.Props.Virtual
import Verif.Model.VirtualParams
import Verif.Spec.Synced
import Verif.Lemmas.VirtualParams
import Verif.Lemmas.Synced
import Verif.Props.Synced
import Verif.Model.EditorInput
import Verif.Spec.EditorInput
import Verif.Lemmas.EditorInput
import Verif.Props.EditorInput
import Verif.Model.Checks
import Verif.Spec.Checks
import Verif.Lemmas.Checks
import Verif.Props.Checks
import Verif.Model.CallbackQueue
import Verif.Props.CallbackQueue
import Verif.Model.Bridge
import Verif.Model.DeviceController
import Verif.Spec.Bridge
import Verif.Lemmas.Bridge
import Verif.Lemmas.BridgeCrc
import Verif.Lemmas.BridgeText
import Verif.Lemmas.BridgeMsg
import Verif.Lemmas.BridgeFlow
import Verif.Props.Bridge
import Verif.Props.BridgeFlow
import Verif.Props.BridgeSafe
import Verif.Props.DeviceController
import Verif.Props.Settings
import Verif.Props.DisplayEditor
import Verif.Props.Workspace
import Verif.Props.Links
import Verif.Props.Shipped
import Verif.Model.VirtualSetup
import Verif.Spec.VirtualSetup
import Verif.Lemmas.VirtualSetup
import Verif.Props.VirtualSetup
import Verif.Model.VirtualMachine
import Verif.Spec.VirtualMachine
import Verif.Lemmas.VirtualTouch
import Verif.Lemmas.VirtualMachine
import Verif.Lemmas.VirtualMorph
import Verif.Props.VirtualMachine
import Verif.Model.Stage
import Verif.Spec.Stage
import Verif.Lemmas.StageApp
import Verif.Lemmas.StageDev
import Verif.Lemmas.StageTrack
import Verif.Lemmas.Stage
import Verif.Props.Stage
import Verif.Props.Properties
import Verif.Props.FrontendLists
import Verif.Props.PortScan
import Verif.Props.EmulatorMidi
import Verif.Props.Runner
import Verif.Props.Monitor
import Verif.Props.Connections
import Verif.Props.EmulatorInputs
import Verif.Props.EmulatorDisplay
import Verif.Props.Clients
import Verif.Props.MidiTypes
import Verif.Props.Saving
import Verif.Props.Colours
import Verif.Props.Tabs
import Verif.Props.Browser
import Verif.Props.Detector
import Verif.Props.RigButtons
import Verif.Props.RigHold
import Verif.Props.ParserSync
import Verif.Props.ActionNames
import Verif.Props.InputSettings
import Verif.Props.Paged
import Verif.Props.Popup
import Verif.Props.WheelPages
import Verif.Props.WheelPending
import Verif.Props.Notifications
import Verif.Props.Ports
import Verif.Props.Catalogue
import Verif.Props.CallbackParams
import Verif.Props.TunerSettings
import Verif.Props.LabelCallback
import Verif.Props.PageIcons
import Verif.Props.CommSettings
import Verif.Props.Examples
import Verif.Props.TrafficRate
import Verif.Props.ActionChooser
import Verif.Props.DeviceType
import Verif.Props.ClassItems
import Verif.Props.MappingOptions
import Verif.Props.MetaLookup
import Verif.Props.Tightened
import Verif.Props.ConnectionButton
import Verif.Props.ActionGrid
import Verif.Props.HardwareList
import Verif.Props.DragPreview
import Verif.Props.Versions
import Verif.Props.ActionClient
import Verif.Props.ActionIcons
import Verif.Props.PageColour
import Verif.Props.EstimateClient
import Verif.Props.ShownBounds
import Verif.Props.Extractors
import Verif.Props.VirtualPanel
import Verif.Props.MappingNames
import Verif.Props.MessageNames
import Verif.Props.ActionOrder
import Verif.Props.KeyNames
import Verif.Props.PageButtons
import Verif.Props.AdvancedRows
import Verif.Props.ProxyNames
import Verif.Props.RigInput
import Verif.Props.TempoInput
import Verif.Props.MonitorOptions
import Verif.Props.InputMarks
import Verif.Props.FontList
