import Verif.Go
import Verif.Actisense.Props2
import Verif.Canusb.Props6
import Verif.Nmea2k.Import
import Verif.Nmea2k.Crash
import Verif.Signalk.Props2
import Verif.Hub.Isolation
import Verif.Hub.Stalled
import Verif.Main.SystemProps
import Verif.Main.Details
import Verif.Main.Control
import Verif.Config.Save
import Verif.Packages.Install
import Verif.Routes.Apps
import Verif.Iface.File
import Verif.Iface.Wire
import Verif.Main.AnyInput
import Verif.Main.Statistics
import Verif.Main.Fatal
import Verif.Main.Values
import Verif.Signalk.Live
import Verif.Can.Text
import Verif.Json.Delta
import Verif.Json.Pages
import Verif.Json.Query
import Verif.Json.Explain
import Verif.Json.Parsed
import Verif.Main.Flags
import Verif.Main.Startup
import Verif.Xml.Pages
import Verif.Main.Broker
import Verif.Main.Races
import Verif.Main.CatchUpStats
import Verif.Path
import Verif.Routes.Paths
import Verif.Packages.Keys
import Verif.Packages.Page
import Verif.Config.Page
import Verif.Config.Post
import Verif.Config.PostProps
import Verif.Config.PostPage
import Verif.Json.Front
import Verif.Canusb.Write
import Verif.Nmea2k.Values
import Verif.Nmea2k.Short
import Verif.Json.Bits
import Verif.Json.BitsCan
import Verif.Json.SystemTime
import Verif.Html.Props
import Verif.Html.Script
import Verif.Html.Tab
import Verif.Float.Angle
import Verif.Float.Position
import Verif.Log.Forged
import Verif.Playback.Layout
import Verif.Socket.System
import Verif.Socket.Page
import Verif.Json.Broker
import Verif.Log.Journal
import Verif.Log.Requests
import Verif.Http.Props
import Verif.Toml.Props
import Verif.Toml.Form
import Verif.Toml.Crash
