import Verif.Model.Basic
/-!
# examples/device/uecholight/esp32/app_main.c: the light on an ESP32

The other files of that directory, main.c and lighting_dev.c, are the same as those of the light for Unix (`Model/Light.lean`).
Logging is not modelled.
-/
namespace Uecho.LightEsp

/-- The events of the base `WIFI_EVENT`, as far as the code tells them apart — examples/device/uecholight/esp32/app_main.c:29-34. -/
inductive WifiEvent
  | staStart
  | staDisconnected
  | other (id : Nat)

/-- What a handler asks the system for: `esp_wifi_connect` (line 30) or a task that runs `main` (line 43). That the task can be created
is assumed. -/
inductive Action
  | connect
  | startLight
  deriving DecidableEq

/-- `wifi_event_handler` — examples/device/uecholight/esp32/app_main.c:27-35. -/
def wifiHandler : WifiEvent → List Action
  | .staStart => [.connect]
  | .staDisconnected => []
  | .other _ => []

/-- `ip_event_handler` — examples/device/uecholight/esp32/app_main.c:37-45; it is registered for `IP_EVENT_STA_GOT_IP` only (lines
71-75). -/
def gotIpHandler : List Action := [.startLight]

/-- The answers of `nvs_flash_init`. -/
inductive NvsResult
  | ok
  | noFreePages
  | newVersionFound
  | failed
  deriving DecidableEq

/-- How `app_main` ends: `ESP_ERROR_CHECK` aborts, which restarts the chip; otherwise `esp_wifi_start` was called. `erased`: everything in
the non-volatile storage was deleted. -/
structure Boot where
  started : Bool
  erased : Bool
  deriving DecidableEq

/-- `app_main` — examples/device/uecholight/esp32/app_main.c:47-88. `first`, `second`: the answers of the calls of `nvs_flash_init`;
`erase`: whether `nvs_flash_erase` succeeds; `rest`: whether all the other checked calls succeed. -/
def appMain (first : NvsResult) (erase : Bool) (second : NvsResult) (rest : Bool) : Boot :=
  if first = .noFreePages ∨ first = .newVersionFound then
    if erase then ⟨second = .ok && rest, true⟩ else ⟨false, false⟩
  else ⟨first = .ok && rest, false⟩

end Uecho.LightEsp
