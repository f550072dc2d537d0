import Verif.Html.Model

set_option autoImplicit false

/-!
# The templates

Written by tools/gen_pages.py from templates/layout.gtpl, templates/index.gtpl and templates/apps.gtpl: the text as it is, cut
at the actions.
-/

namespace Argo.Html

open Argo.Signalk (Str bs)
open Argo.Config (Setting)

/-- templates/layout.gtpl:1-40, up to `{{template "content" .}}`. -/
def layoutHead : Str := lines ["",
      "<!DOCTYPE html>",
      "<html lang=\"en\">",
      "  <head>",
      "    <meta charset=\"utf-8\">",
      "    <meta http-equiv=\"X-UA-Compatible\" content=\"IE=edge\">",
      "    <meta name=\"viewport\" content=\"width=device-width, initial-scale=1, shrink-to-fit=no\">",
      "",
      "    <title>Argo :: A Signal K Server</title>",
      "",
      "    <!-- Bootstrap core CSS -->",
      "    <link href=\"/assets/css/bootstrap.min.css\" rel=\"stylesheet\">",
      "",
      "    <!-- Custom styles for this template -->",
      "    <link href=\"/assets/css/site.css\" rel=\"stylesheet\">",
      "  </head>",
      "",
      "  <body>",
      "    <nav class=\"navbar navbar-expand-md navbar-dark bg-dark fixed-top\">",
      "      <a class=\"navbar-brand\" href=\"/\">Argo <small>A Signal K Server</small></a>",
      "      <button class=\"navbar-toggler\" type=\"button\" data-toggle=\"collapse\" data-target=\"#navbarLinks\"",
      "        aria-controls=\"navbarLinks\" aria-expanded=\"false\" aria-label=\"Toggle navigation\">",
      "        <span class=\"navbar-toggler-icon\"></span>",
      "      </button>",
      "      <div class=\"collapse navbar-collapse\" id=\"navbarLinks\">",
      "        <ul class=\"navbar-nav mr-auto\">",
      "          <li class=\"nav-item\">",
      "            <a class=\"nav-link\" href=\"/\">Configuration</a>",
      "          </li>",
      "          <li class=\"nav-item\">",
      "            <a class=\"nav-link\" href=\"/apps\">Apps</a>",
      "          </li>",
      "          <li class=\"nav-item\">",
      "            <a class=\"nav-link\" href=\"#\">Plugins</a>",
      "          </li>",
      "        </ul>",
      "      </div>",
      "    </nav>",
      "    <div class=\"container\">",
      "      "]

/-- templates/layout.gtpl:40-63, after `{{template "content" .}}`. -/
def layoutFoot : Str := lines ["",
      "    </div>",
      "    <nav class=\"navbar navbar-expand-md navbar-dark bg-dark fixed-bottom\">",
      "      <div class=\"navbar-nav mr-auto\">",
      "        <a class=\"nav-item nav-link\" href=\"https://github.com/timmathews/argo\">GitHub</a>",
      "        <a class=\"nav-item nav-link\" href=\"http://signalk.org\">Signal K</a>",
      "      </div>",
      "      <span class=\"navbar-text\">",
      "        &copy; 2016 Tim Mathews, Licensed",
      "        <a href=\"http://www.gnu.org/licenses/gpl-3.0.html\">GPLv3</a>",
      "      </span>",
      "    </nav>",
      "",
      "    <!-- Bootstrap core JavaScript",
      "    ================================================== -->",
      "    <!-- Placed at the end of the document so the pages load faster -->",
      "    <script src=\"/assets/js/jquery.min.js\"></script>",
      "    <script src=\"/assets/js/popper.min.js\"></script>",
      "    <script src=\"/assets/js/bootstrap.min.js\"></script>",
      "    <!-- IE10 viewport hack for Surface/desktop Windows 8 bug -->",
      "    <script src=\"/assets/js/site.js\"></script>",
      "  </body>",
      "</html>",
      ""]

/-- templates/index.gtpl:1-291, part 0. -/
def indexContent0 : List (Leaf Setting) :=
  [ .text (lines ["",
      "<div class=\"row\">",
      "  <div class=\"col-3\">",
      "    <h2>Statistics</h2>",
      "    <table class=\"table table-sm table-striped\">",
      "      <thead>",
      "        <tr><th>PGN</th><th>Count</th></tr>",
      "      </thead>",
      "      <tbody id=\"stats\"></tbody>",
      "    </table>",
      "  </div>",
      "  <div class=\"col-7\">",
      "    <form id=\"settings\" onsubmit=\"return submitForm()\">",
      "      <div class=\"tab-content\">",
      "        <div role=\"tabpanel\" class=\"tab-pane active\" id=\"basic-setup\">",
      "          <div class=\"form-group\">",
      "            <label for=\"vesselName\">Vessel Name</label>",
      "            <input class=\"form-control\" id=\"vesselName\" placeholder=\"Name\" value=\""]),
    .act .attr .vesselName,
    .text (lines ["\">",
      "          </div>",
      "          <div class=\"form-row\">",
      "            <div class=\"col\">",
      "              <div class=\"form-group\">",
      "                <label for=\"vesselManufacturer\">Manufacturer</label>",
      "                <input class=\"form-control\" id=\"vesselManufacturer\" placeholder=\"Manufacturer\"",
      "                value=\""]),
    .act .attr .manufacturer,
    .text (lines ["\">",
      "              </div>",
      "            </div>",
      "            <div class=\"col\">",
      "              <div class=\"form-group\">",
      "                <label for=\"vesselModel\">Model</label>",
      "                <input class=\"form-control\" id=\"vesselModel\" placeholder=\"Model\" value=\""]),
    .act .attr .model,
    .text (lines ["\">",
      "              </div>",
      "            </div>",
      "            <div class=\"col\">",
      "              <div class=\"form-group\">",
      "                <label for=\"vesselYear\">Year</label>",
      "                <input class=\"form-control\" id=\"vesselYear\" placeholder=\"Year\" type=\"number\" value=\""]),
    .act .attr .year,
    .text (lines ["\">",
      "              </div>",
      "            </div>",
      "          </div>",
      "          <div class=\"form-row\">",
      "            <div class=\"col\">",
      "              <div class=\"form-group\">",
      "                <label for=\"mmsi\">MMSI</label>",
      "                <img src=\"/assets/svg/info.svg\" class=\"octicon\" data-toggle=\"tooltip\" data-placement=\"top\"",
      "                  title=\"Maritime Mobile Service Identity, assigned regionally, leave blank if you do not have",
      "                  one\" />",
      "                <input class=\"form-control\" id=\"mmsi\" placeholder=\"MMSI\" value=\""]),
    .act .attr .mmsi,
    .text (lines ["\">",
      "              </div>",
      "            </div>",
      "            <div class=\"col\">",
      "              <div class=\"form-group\">",
      "                <label for=\"callsign\">Callsign</label>",
      "                <img src=\"/assets/svg/info.svg\" class=\"octicon\" data-toggle=\"tooltip\" data-placement=\"top\"",
      "                  title=\"Your radio callsign\" />",
      "                <input class=\"form-control\" id=\"callsign\" placeholder=\"Callsign\" value=\""]),
    .act .attr .callsign,
    .text (lines ["\">",
      "              </div>",
      "            </div>",
      "            <div class=\"col\">",
      "              <div class=\"form-group\">",
      "                <label for=\"registration\">Registration</label>",
      "                <img src=\"/assets/svg/info.svg\" class=\"octicon\" data-toggle=\"tooltip\" data-placement=\"top\"",
      "                  title=\"Your boat's registration number, typically displayed on the side of the hull\" />",
      "                <input class=\"form-control\" id=\"registration\" placeholder=\"Registration\"",
      "                  value=\""]),
    .act .attr .registration,
    .text (lines ["\">",
      "              </div>",
      "            </div>",
      "          </div>",
      "          <div class=\"form-group\">",
      "            <label for=\"port\">UUID</label><a class=\"float-right\" id=\"genUUID\" href=\"#\">Generate new UUID</a>",
      "            <img src=\"/assets/svg/info.svg\" class=\"octicon\" data-toggle=\"tooltip\" data-placement=\"top\"",
      "              title=\"The UUID is used to uniquely identify your boat in Signal K, if you have one from a",
      "              previous installation of Signal K enter it here, otherwise click 'Generate new UUID to have one",
      "              created for you\" />",
      "            <div class=\"form-row\">",
      "              <div class=\"col-3\">",
      "                <input class=\"form-control\" id=\"uuid_0\" value=\""]),
    .act .attr .uuid0,
    .text (lines ["\">",
      "              </div>",
      "              <div class=\"col-2\">",
      "                <input class=\"form-control\" id=\"uuid_1\" value=\""]),
    .act .attr .uuid1,
    .text (lines ["\">",
      "              </div>",
      "              <div class=\"col-2\">",
      "                <input class=\"form-control\" id=\"uuid_2\" value=\""]),
    .act .attr .uuid2,
    .text (lines ["\">",
      "              </div>",
      "              <div class=\"col-2\">",
      "                <input class=\"form-control\" id=\"uuid_3\" value=\""]),
    .act .attr .uuid3,
    .text (lines ["\">",
      "              </div>",
      "              <div class=\"col-3\">",
      "                <input class=\"form-control\" id=\"uuid_4\" value=\""]),
    .act .attr .uuid4,
    .text (lines ["\">",
      "              </div>",
      "            </div>",
      "          </div>",
      "        </div> <!-- basic-setup -->",
      "        <div role=\"tabpanel\" class=\"tab-pane\" id=\"network\">",
      "          <div class=\"form-row\">",
      "            <div class=\"col-8\">",
      "              <div class=\"form-group\">",
      "                <label for=\"listenOn\">Listen On</label>",
      "                <input class=\"form-control\" id=\"listenOn\" placeholder=\"IP Address\" value=\""]),
    .act .attr .listenOn,
    .text (lines ["\">",
      "              </div>",
      "            </div>",
      "            <div class=\"col-4\">",
      "              <div class=\"form-group\">",
      "                <label for=\"port\">Port</label>",
      "                <input class=\"form-control\" id=\"port\" type=\"number\" placeholder=\"Port\" value=\""]),
    .act .attr .serverPort,
    .text (lines ["\">",
      "              </div>",
      "            </div>",
      "          </div>",
      "          <div class=\"form-check\">",
      "            <label class=\"form-check-label\">",
      "              <input class=\"form-check-input\" id=\"enableWebsockets\" type=\"checkbox\"",
      "                "]) ]

/-- templates/index.gtpl:1-291, part 1. -/
def indexContent1 : List (Leaf Setting) :=
  [ .text (lines [">",
      "              Enable WebSockets",
      "            </label>",
      "          </div>",
      "          <div class=\"form-check\">",
      "            <label class=\"form-check-label\">",
      "              <input class=\"form-check-input\" id=\"useTls\" type=\"checkbox\" "]) ]

/-- templates/index.gtpl:1-291, part 2. -/
def indexContent2 : List (Leaf Setting) :=
  [ .text (lines [">",
      "              Use TLS",
      "            </label>",
      "          </div>",
      "          <div class=\"form-group\">",
      "            <label for=\"certificate\">Install Certificate</label>",
      "            <input class=\"form-control-file\" id=\"certificate\" type=\"file\" placeholder=\"Certificate\">",
      "          </div>",
      "          <hr>",
      "          <div class=\"form-check\">",
      "            <label class=\"form-check-label\">",
      "              <input class=\"form-check-input\" id=\"mqttEnable\" type=\"checkbox\" "]) ]

/-- templates/index.gtpl:1-291, part 3. -/
def indexContent3 : List (Leaf Setting) :=
  [ .text (lines [">",
      "              Enable MQTT",
      "            </label>",
      "          </div>",
      "          <div class=\"form-row\">",
      "            <div class=\"col-8\">",
      "              <div class=\"form-group\">",
      "                <label for=\"mqttHost\">MQTT Server</label>",
      "                <input class=\"form-control\" id=\"mqttHost\" placeholder=\"Hostname\" value=\""]),
    .act .attr .mqttHost,
    .text (lines ["\">",
      "              </div>",
      "            </div>",
      "            <div class=\"col-4\">",
      "              <div class=\"form-group\">",
      "                <label for=\"mqttPort\">Port</label>",
      "                <input class=\"form-control\" id=\"mqttPort\" type=\"number\" placeholder=\"Port\" value=\""]),
    .act .attr .mqttPort,
    .text (lines ["\">",
      "              </div>",
      "            </div>",
      "          </div>",
      "          <div class=\"form-row\">",
      "            <div class=\"col\">",
      "              <div class=\"form-group\">",
      "                <label for=\"mqttClientId\">Client ID</label>",
      "                <input class=\"form-control\" id=\"mqttClientId\" placeholder=\"Client ID\" value=\""]),
    .act .attr .clientId,
    .text (lines ["\">",
      "              </div>",
      "            </div>",
      "            <div class=\"col\">",
      "              <div class=\"form-group\">",
      "                <label for=\"mqttUsername\">Username</label>",
      "                <input class=\"form-control\" id=\"mqttUsername\" placeholder=\"Username\" value=\""]),
    .act .attr .username,
    .text (lines ["\">",
      "              </div>",
      "            </div>",
      "            <div class=\"col\">",
      "              <div class=\"form-group\">",
      "                <label for=\"mqttPassword\">Password</label>",
      "                <input class=\"form-control\" id=\"mqttPassword\" type=\"password\" placeholder=\"Password\"",
      "                  value=\""]),
    .act .attr .password,
    .text (lines ["\">",
      "              </div>",
      "            </div>",
      "          </div>",
      "          <div class=\"form-check\">",
      "            <label class=\"form-check-label\">",
      "              <input class=\"form-check-input\" id=\"mqttUseTls\" type=\"checkbox\" "]) ]

/-- templates/index.gtpl:1-291, part 4. -/
def indexContent4 : List (Leaf Setting) :=
  [ .text (lines [">",
      "              Use TLS",
      "            </label>",
      "          </div>",
      "        </div> <!-- network -->",
      "        <div role=\"tabpanel\" class=\"tab-pane\" id=\"providers\">",
      "          <table class=\"table table-sm table-striped\" id=\"providerList\">",
      "            <thead>",
      "              <tr>",
      "                <th>Type</th>",
      "                <th>Path</th>",
      "                <th>Speed</th>",
      "              </tr>",
      "            </thead>",
      "            <tbody id=\"providerListBody\">",
      "            </tbody>",
      "          </table>",
      "          <div class=\"from-group\">",
      "            <button class=\"btn btn-primary\" data-toggle=\"modal\" data-target=\"#interfaceModal\">",
      "              Add Interface",
      "            </button>",
      "          </div>",
      "        </div> <!-- providers -->",
      "      </div> <!-- tab-content -->",
      "      <hr>",
      "      <div class=\"form-group\">",
      "        <button class=\"btn btn-success btn-lg btn-block\">Update Settings</button>",
      "      </div>",
      "    </form>",
      "  </div>",
      "  <div class=\"col-sm-2\">",
      "    <label>Configuration</label>",
      "    <ul class=\"nav nav-pills flex-column\" role=\"tablist\">",
      "      <li role=\"presentation\" class=\"nav-item\">",
      "        <a href=\"#basic-setup\" aria-controls=\"basic-setup\" role=\"tab\" data-toggle=\"tab\" class=\"nav-link active\">",
      "          Vessel Info",
      "        </a>",
      "      </li>",
      "      <li role=\"presentation\" class=\"nav-item\">",
      "        <a href=\"#network\" aria-controls=\"network\" role=\"tab\" data-toggle=\"tab\" class=\"nav-link\">Network</a>",
      "      </li>",
      "      <li role=\"presentation\" class=\"nav-item\">",
      "        <a href=\"#providers\" aria-controls=\"providers\" role=\"tab\" data-toggle=\"tab\" class=\"nav-link\">",
      "          Providers",
      "        </a>",
      "      </li>",
      "    </ul>",
      "  </div>",
      "</div>",
      "",
      "<div id=\"interfaceModal\" class=\"modal fade\" tabindex=\"-1\" role=\"dialog\" aria-labelledby=\"interfaceModalLabel\"",
      "  aria-hidden=\"true\">",
      "  <div class=\"modal-dialog\" role=\"document\">",
      "    <div class=\"modal-content\">",
      "      <div class=\"modal-header\">",
      "        <h5 class=\"modal-title\" id=\"interfaceModalLabel\">Add Interface</h5>",
      "        <button type=\"button\" class=\"close\" data-dismiss=\"modal\" aria-label=\"Close\">",
      "          <span aria-hidden=\"true\">&times;</span>",
      "        </button>",
      "      </div>",
      "      <div class=\"modal-body\">",
      "        <form id=\"addInterface\">",
      "          <div class=\"form-group\">",
      "            <label class=\"control-label\" for=\"interfaceType\">",
      "              Interface Type",
      "            </label>",
      "            <select class=\"form-control\" id=\"interfaceType\">",
      "              <option>Select Type</option>",
      "              <option></option>",
      "              <option value=\"filestreamNmea0183\">NMEA 0183 Log File</option>",
      "              <option value=\"filestreamNmea2000\">NMEA 2000 Log File</option>",
      "              <option value=\"gpsd\">GPSd Server</option>",
      "              <option value=\"actisense\">Actisense NGT-1</option>",
      "              <option value=\"canusb\">Lawicel CAN-USB</option>",
      "            </select>",
      "          </div>",
      "          <div class=\"form-group\" id=\"devicePathGroup\" style=\"display: hidden\">",
      "            <label for=\"devicePath\">Source Device</label>",
      "            <input class=\"form-control\" id=\"devicePath\" type=\"text\" />",
      "          </div>",
      "          <div class=\"form-group\" id=\"fileSelectGroup\" style=\"display: hidden\">",
      "            <label for=\"filename\">Read From</label>",
      "            <select class=\"form-control\" id=\"filename\" value=\"\">",
      "              <option>Select File</option>",
      "              <option></option>",
      "              <option value=\"\"></option>",
      "            </select>",
      "          </div>",
      "        </form>",
      "      </div>",
      "      <div class=\"modal-footer\">",
      "        <button type=\"button\" class=\"btn btn-secondary\" data-dismiss=\"modal\">Close</button>",
      "        <button type=\"button\" class=\"btn btn-primary\" data-dismiss=\"modal\" onClick=\"addInterface()\">",
      "          Add Interface",
      "        </button>",
      "      </div>",
      "    </div>",
      "  </div>",
      "</div>",
      "",
      "<div id=\"pgnModal\" class=\"modal fade\" tabindex=\"-1\" role=\"dialog\" aria-labelledby=\"pgnModalLabel\" aria-hidden=\"true\">",
      "  <div class=\"modal-dialog\" role=\"document\">",
      "    <div class=\"modal-content\">",
      "      <div class=\"modal-header\">",
      "        <h5 class=\"modal-title\" id=\"pgnModalLabel\"></h5>",
      "        <button type=\"button\" class=\"close\" data-dismiss=\"modal\" aria-label=\"Close\">",
      "          <span aria-hidden=\"true\">&times;</span>",
      "        </button>",
      "      </div>",
      "      <div class=\"modal-body\">",
      "        <p>PGN: <span class='pgn'></span></p>",
      "        <p>Category: <span class='category'></span></p>",
      "        <p>Fields</p>",
      "        <ul class='fields'></ul>",
      "      </div>",
      "      <div class=\"modal-footer\">",
      "        <button type=\"button\" class=\"btn btn-secondary\" data-dismiss=\"modal\">Close</button>",
      "      </div>",
      "    </div>",
      "  </div>",
      "</div>",
      ""]) ]

/-- templates/index.gtpl:1-291. -/
def indexContent : List (Node Setting) :=
  indexContent0.map .leaf ++
  [.cond .enableWebsockets
      [.text (lines [" checked "])]
      []] ++
  indexContent1.map .leaf ++
  [.cond .serverUseTls
      [.text (lines [" checked "])]
      []] ++
  indexContent2.map .leaf ++
  [.cond .mqttEnable
      [.text (lines [" checked "])]
      []] ++
  indexContent3.map .leaf ++
  [.cond .mqttUseTls
      [.text (lines [" checked "])]
      []] ++
  indexContent4.map .leaf

/-- templates/apps.gtpl:1-15, up to `{{range}}`. -/
def appsHead : Str := lines ["",
      "<h1>Web Apps</h1>",
      "<table class=\"table table-sm table-striped\">",
      "  <thead>",
      "    <tr>",
      "      <th></th>",
      "      <th>Installed Version</th>",
      "      <th>Name</th>",
      "      <th>Description</th>",
      "      <th>Authors</th>",
      "      <th>Link</th>",
      "    </tr>",
      "  </thead>",
      "  <tbody>",
      "  "]

/-- templates/apps.gtpl:15-40: what `{{range}}` repeats, part 0. -/
def appsRow0 : List (Leaf AppField) :=
  [ .text (lines ["",
      "    <tr>",
      "      <td>",
      "        <form class=\"appInstall\">",
      "          <input type=\"hidden\" name=\"name\" value=\""]),
    .act .attr .name,
    .text (lines ["\">",
      "          <input type=\"hidden\" name=\"version\" value=\""]),
    .act .attr .version,
    .text (lines ["\">",
      "          <button class=\"btn btn-light btn-sm btn-block\">",
      "            Install "]),
    .act .text .version,
    .text (lines ["",
      "          </button>",
      "        </form>",
      "      </td>",
      "      <td class=\"version\">"]),
    .act .text .installed,
    .text (lines ["</td>",
      "      <td class=\"path\">",
      "        "]) ]

/-- templates/apps.gtpl:15-40: what `{{range}}` repeats, part 1. -/
def appsRow1 : List (Leaf AppField) :=
  [ .text (lines ["",
      "      </td>",
      "      <td>"]),
    .act .text .description,
    .text (lines ["</td>",
      "      <td>"]),
    .act .text .author,
    .text (lines ["</td>",
      "      <td><a href=\""]),
    .act .url .npm,
    .text (lines ["\">npm</a></td>",
      "    </tr>",
      "  "]) ]

/-- templates/apps.gtpl:15-40: what `{{range}}` repeats. -/
def appsRow : List (Node AppField) :=
  appsRow0.map .leaf ++
  [.cond .path
      [.text (lines ["",
      "          <a href=\""]),
       .act .url .path,
       .text (lines ["\">",
      "            "]),
       .act .text .name,
       .text (lines ["",
      "          </a>",
      "        "])]
      [.text (lines ["",
      "          "]),
       .act .text .name,
       .text (lines ["",
      "        "])]] ++
  appsRow1.map .leaf

/-- templates/apps.gtpl:40-43, after the `{{end}}` of `{{range}}`. -/
def appsFoot : Str := lines ["",
      "  </tbody>",
      "</table>",
      ""]

/-- main/ui_server.go:189-198 `indexHandler`: the page of the settings `c`. -/
def indexPage (c : Config.Conf) : Str :=
  render (fun s => sprint (c.val s)) (symsOf (fun s => isTrue (c.val s))
    (.leaf (.text layoutHead) :: (indexContent ++ [.leaf (.text layoutFoot)])))

/-- main/ui_server.go:147 and templates/apps.gtpl: the page of these packages. -/
def appsPage (l : List Packages.NpmObject) : Str :=
  render (F := AppField) (fun _ => []) (symsOf (fun _ => false) [.leaf (.text layoutHead), .leaf (.text appsHead)]) ++
  l.flatMap (fun o => render (AppField.get o) (symsOf (fun f => AppField.get o f != []) appsRow)) ++
  render (F := AppField) (fun _ => []) (symsOf (fun _ => false) [.leaf (.text appsFoot), .leaf (.text layoutFoot)])

end Argo.Html
