import Verif.Main.Api
import Verif.Packages.Model

set_option autoImplicit false

/-!
# Model of the HTTP routing

main/api_server.go:164-173, main/ui_server.go:158-211 and main/websocket_server.go:131-204: which handler
answers a request path.  The path matching of `net/http.ServeMux` and `gorilla/mux` (v1.4.0) is taken from
their documentation; neither source is available here.  Only the path of a request is modelled.
-/

namespace Argo.Routes

open Argo
open Argo.Signalk (bs)

/-- Byte strings. -/
abbrev Str := Signalk.Str

/-- Who answers. -/
inductive Handler where
  /-- `HomeHandler` -/
  | apiHome
  /-- `MessagesIndex` -/
  | apiIndex
  /-- `MessageDetailsHandler` with `mux.Vars(r)["key"]` -/
  | apiDetails (key : Str)
  /-- `SendMessageHandler` -/
  | apiSend
  /-- `serveWs` -/
  | ws
  /-- `handleStats` -/
  | stats
  /-- a file of ./node_modules -/
  | appFile (path : Str)
  /-- a file of the asset directory -/
  | asset (path : Str)
  /-- `uuidHandler` -/
  | uuid
  /-- `adminHandler` -/
  | admin
  /-- the handler made by `appInstallHandlerFactory` -/
  | appInstall
  /-- `appsHandler` -/
  | apps
  /-- `indexHandler` -/
  | index
  /-- status 404 -/
  | notFound
  /-- status 301 -/
  | redirect (to : Str)
  deriving DecidableEq, Repr

/-! ## gorilla/mux -/

/-- A route template: `HandleFunc(p)`, `PathPrefix(p)`, and `HandleFunc(p + "{key}")`. -/
inductive Pat where
  | exact (p : Str)
  | pre (p : Str)
  | keyed (p : Str)
  deriving DecidableEq, Repr

/-- Whether a template matches a path, and what `{key}` stands for: a non-empty text without slash. -/
def Pat.matches : Pat → Str → Option Str
  | .exact p, path => if path = p then some [] else none
  | .pre p, path => if p.isPrefixOf path then some [] else none
  | .keyed p, path =>
    if p.isPrefixOf path ∧ path.drop p.length ≠ [] ∧ (47 : UInt8) ∉ path.drop p.length then
      some (path.drop p.length)
    else none

/-- The first route that matches. -/
def muxServe : List (Pat × (Str → Str → Handler)) → Str → Handler
  | [], _ => .notFound
  | (p, h) :: rest, path =>
    match p.matches path with
    | some key => h path key
    | none => muxServe rest path

/-- `http.StripPrefix(p, ...)` in front of a file server. -/
def stripped (p : Str) (f : Str → Handler) (path : Str) : Handler :=
  if p.isPrefixOf path then f (path.drop p.length) else .notFound

/-- api_server.go:165-171; the prefix of the subrouter is written out. -/
def apiRoutes : List (Pat × (Str → Str → Handler)) :=
  [(.exact (bs "/signalk/v1/api/"), fun _ _ => .apiHome),
   (.exact (bs "/signalk/v1/api/messages"), fun _ _ => .apiIndex),
   (.exact (bs "/signalk/v1/api/messages/"), fun _ _ => .apiIndex),
   (.keyed (bs "/signalk/v1/api/messages/"), fun _ key => .apiDetails key),
   (.exact (bs "/signalk/v1/api/control/send"), fun _ _ => .apiSend)]

/-- ui_server.go:189-193 and 167-169: an app route. -/
def appRoute (p : Str) : Pat × (Str → Str → Handler) := (.pre p, fun path _ => stripped (bs "/apps/") .appFile path)

/-- ui_server.go:196-204: `apps` are the keys of `getInstalledPackages` in the order of the map iteration
of `addApps`; `added` are the paths added by installations since the start (ui_server.go:166-169). -/
def uiRoutes (apps added : List Str) : List (Pat × (Str → Str → Handler)) :=
  apps.map (fun k => appRoute (bs "/apps/" ++ k)) ++
  [(.pre (bs "/assets/"), fun path _ => stripped (bs "/assets/") .asset path),
   (.exact (bs "/admin/uuid"), fun _ _ => .uuid),
   (.exact (bs "/admin"), fun _ _ => .admin),
   (.exact (bs "/apps/install"), fun _ _ => .appInstall),
   (.exact (bs "/apps"), fun _ _ => .apps),
   (.exact (bs "/"), fun _ _ => .index)] ++
  added.map appRoute

/-! ## net/http.ServeMux -/

/-- What is registered with the default ServeMux. -/
inductive Target where
  | api
  | ui
  | ws
  | stats
  deriving DecidableEq, Repr

/-- api_server.go:172, ui_server.go:204, websocket_server.go:198-199: the four registrations, made by
three goroutines in any order. -/
def regApi : Str × Target := (bs "/signalk/v1/api/", .api)
/-- ui_server.go:204. -/
def regUi : Str × Target := (bs "/", .ui)
/-- websocket_server.go:198. -/
def regWs : Str × Target := (bs "/signalk/v1/", .ws)
/-- websocket_server.go:199. -/
def regStats : Str × Target := (bs "/ws/stats", .stats)

/-- `pathMatch` of net/http: a pattern ending in a slash matches every path it is a prefix of, another
one only itself. -/
def pathMatch (pat path : Str) : Bool :=
  if pat.getLast? = some 47 then pat.isPrefixOf path else pat == path

/-- The longest registered pattern that matches. -/
def longest : List (Str × Target) → Str → Option (Str × Target)
  | [], _ => none
  | r :: rest, path =>
    match longest rest path with
    | none => if pathMatch r.1 path then some r else none
    | some b => if pathMatch r.1 path && b.1.length < r.1.length then some r else some b

/-- net/http: a path without its final slash is redirected if only the path with it is registered. -/
def slashRedirect (regs : List (Str × Target)) (path : Str) : Bool :=
  path.getLast? ≠ some 47 && (regs.any (fun r => r.1 == path ++ [47])) && !(regs.any (fun r => r.1 == path))

/-- The answer to a request for `path`.  `clean` is the path cleaning of net/http (`path.Clean`, keeping a
final slash): both routers redirect to the clean path.  `none`: nobody listens.  Listening starts in
`WebSocketServer` (websocket_server.go:200), which main calls only if `EnableWebsockets`
(argo.go:146-153). -/
def serve (clean : Str → Str) (enableWebsockets : Bool) (regs : List (Str × Target)) (apps added : List Str)
    (path : Str) : Option Handler :=
  if !enableWebsockets then none
  else if clean path ≠ path then some (.redirect (clean path))
  else if slashRedirect regs path then some (.redirect (path ++ [47]))
  else match longest regs path with
    | none => some .notFound
    | some (_, .api) => some (muxServe apiRoutes path)
    | some (_, .ui) => some (muxServe (uiRoutes apps added) path)
    | some (_, .ws) => some .ws
    | some (_, .stats) => some .stats

/-- The hub a successful WebSocket handshake joins: websocket_server.go:150-156 and 177-179. -/
inductive Joined where
  | deltas
  | statistics
  | nothing
  deriving DecidableEq, Repr

/-- `serveWs` looks at the path again, `handleStats` does not. -/
def joins : Handler → Str → Option Joined
  | .ws, path => some (if path = bs "/signalk/v1/stream" then .deltas else .nothing)
  | .stats, _ => some .statistics
  | _, _ => none

/-- packages.go:70-78 `getPathForPackage`; `join` is `filepath.Join`, `hasIndex` whether the package
directory has an index.html. -/
def pathForPackage (join : Str → Str → Str) (hasIndex : Bool) (pkg : Str) : Str :=
  if hasIndex then join (bs "/apps") pkg else join (join (bs "/apps") pkg) (bs "public")

/-- ui_server.go:141: the link to an installed app on the page. -/
def appLink (p : Packages.Pkg) : Str := bs "/apps" ++ p.location

end Argo.Routes
