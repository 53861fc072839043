import Verif.Props.AreaArg
import Verif.Props.Arith
import Verif.Props.Attr
import Verif.Props.Belts
import Verif.Props.Book
import Verif.Props.BookList
import Verif.Props.BookString
import Verif.Props.BoxPoints
import Verif.Props.BpAttr
import Verif.Props.BpString
import Verif.Props.BpVersion
import Verif.Props.Checks
import Verif.Props.Codec
import Verif.Props.Command
import Verif.Props.Convert
import Verif.Props.Copy
import Verif.Props.Ctor
import Verif.Props.DataAttr
import Verif.Props.DataTables
import Verif.Props.Decider
import Verif.Props.DeciderList
import Verif.Props.Defaults
import Verif.Props.Direction
import Verif.Props.Energy
import Verif.Props.EntTypes
import Verif.Props.EntityList
import Verif.Props.EntityMixin
import Verif.Props.EntitySlice
import Verif.Props.EnvArchive
import Verif.Props.EnvUpdate
import Verif.Props.Equality
import Verif.Props.Export
import Verif.Props.FloatPos
import Verif.Props.GameData
import Verif.Props.GameItems
import Verif.Props.GameVersion
import Verif.Props.Geometry
import Verif.Props.Grid
import Verif.Props.Group
import Verif.Props.GroupAttr
import Verif.Props.Import
import Verif.Props.InPlace
import Verif.Props.InfPipe
import Verif.Props.Instruments
import Verif.Props.Json
import Verif.Props.JsonBytes
import Verif.Props.JsonStr
import Verif.Props.JsonText
import Verif.Props.Lifecycle
import Verif.Props.Machines
import Verif.Props.Mappers
import Verif.Props.Merge
import Verif.Props.MergeAttr
import Verif.Props.MergeShare
import Verif.Props.ModEnable
import Verif.Props.ModList
import Verif.Props.ModLoad
import Verif.Props.ModSettings
import Verif.Props.ModTable
import Verif.Props.Modules
import Verif.Props.NestMap
import Verif.Props.Nested
import Verif.Props.NestedList
import Verif.Props.OrientName
import Verif.Props.OrientVec
import Verif.Props.Overlap
import Verif.Props.Position
import Verif.Props.Power
import Verif.Props.RailPlanner
import Verif.Props.Record
import Verif.Props.Rect
import Verif.Props.Rename
import Verif.Props.Requests
import Verif.Props.RoundTrip
import Verif.Props.SavedSettings
import Verif.Props.SchedList
import Verif.Props.Schedule
import Verif.Props.Search
import Verif.Props.SetAlgebra
import Verif.Props.SetEntities
import Verif.Props.SetTiles
import Verif.Props.Setup
import Verif.Props.Shorthand
import Verif.Props.Signals
import Verif.Props.Slots
import Verif.Props.SpatialHash
import Verif.Props.Special
import Verif.Props.Stops
import Verif.Props.Suggest
import Verif.Props.Surface
import Verif.Props.TileList
import Verif.Props.TileMixin
import Verif.Props.TrainConfig
import Verif.Props.TrainSched
import Verif.Props.TrainSearch
import Verif.Props.Trains
import Verif.Props.Transform
import Verif.Props.Upgrade
import Verif.Props.ValResult
import Verif.Props.Validate
import Verif.Props.VecArith
import Verif.Props.Version
import Verif.Props.WaitAttr
import Verif.Props.WaitCond
import Verif.Props.Warnings
import Verif.Props.Wires
import Verif.Audit
