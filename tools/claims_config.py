K='Argo.Config.'
def kc(pid,status,thms,note=''): c(pid,status,[K+x for x in thms],note)
kc('C73','partial',['C73_value','C73_error','C73_defaults_partial','C73_affected','C73_documented','C73_false'],'False of the code for explicit zero values of the twelve settings that have a default (C73_false, C73_affected). The exact rule is proved for every file (C73_value). mergo is modelled from its documentation.')
kc('C74','proved',['C74_uuid','C74_unique'])
kc('C75','partial',['C75_rule','C75_update_partial','C75_sticky','C75_false'],'False of the code: only unset settings change (C75_false, C75_sticky). The exact rule is C75_rule.')
kc('C76','partial',['C76_save','C76_history_partial','C76_single','C76_repeat_false','C76_concurrent_false','C76_concurrent_backup_false','C76_disk_full_false'],'Proved for every crash point, chunking and history of completed saves; false for a save after a crashed one, for concurrent saves and for failing writes.')
kc('C83','partial',['C83_roundtrip','C83_uuid_stale_false'],'The round trip is proved for every file; after an admin POST the UUID parts in memory are stale until restart (C83_uuid_stale_false).')
P='Argo.Packages.'
def kp(pid,status,thms,note=''): c(pid,status,[P+x for x in thms],note)
kp('C77','partial',['C77_exact','C77_scope','C77_listing_partial','C77_sound','C77_lookup','C77_empty','C77_keys','C77_false'],'False of the code: one package directory without a readable package.json empties its level (C77_false, C77_empty). The exact result is proved for every tree (C77_exact). JSON is a parameter, and so is filepath.Join for locations; that the keys are computed right is C77_keys.')
kp('C78','proved',['C78_pipe_before_start','C78_handshake','C78_leak','C78_waits'])
kp('C84','partial',['C84_returns_partial','C84_hang_false'],'Proved for every schedule when no line of output reaches the scanner limit; otherwise installPackage can hang forever (C84_hang_false).')
c('C113','partial',['Argo.Packages.'+x for x in ['C113_rows','C113_button','C113_marked_partial','C113_failures','C113_option','C113_argument_partial','C113_installed_partial','C113_reply_false','C113_unmarked_false','C113_argument_false','C113_failure_false']],'False: replies with their own path, trees with a directory without package.json, versions with @, failed installations (the _false theorems). Escaping by html/template and HTML set by site.js: C119, C120.')
c('C114','partial',['Argo.Config.'+x for x in ['C114_rule','C114_shown','C114_unchanged_partial','C114_entered_partial','C114_uuid_entered','C114_generated','C114_uuid_false','C114_cleared_false']],'False: an unchanged page sets a missing UUID to four dashes for good (C114_uuid_false), cleared inputs have no effect (C114_cleared_false). C114_rule is the exact effect of every submission. The browser is a parameter. From the form to the bytes posted and back, and the numbers for which this holds: C133.')
c('C115','partial',['Argo.Json.'+x for x in ['C115_table','C115_caught_up','C115_catch_up','C115_rows_stay','C115_window_partial','C115_window_unknown','C115_window_false','C115_field_names']],'The table is proved for every schedule; the window is false for PGNs without a definition (C115_window_false), C115_window_unknown says what it shows. Printing of numbers by the browser is not modelled; the HTML of rows and names is C120.')
c('C116','partial',['Argo.Canusb.'+x for x in ['C116_panic','C116_long','C116_frame','C116_buffer','C116_modifies_false','C116_count_false']],'The frame and the panics are exact for every buffer; false: the buffer is changed (C116_modifies_false) and the number returned is not that of its bytes (C116_count_false).')
c('C119','proved',['Argo.Html.'+x for x in ['C119_index','C119_setting','C119_form','C119_apps','C119_links','C119_kept']],'The templates are those of the repository (tools/gen_pages.py); html/template is modelled on the part they use, the browser by the states of the HTML tokenizer they reach, on anything else it reads nothing. The building of the document tree from the tokens is not modelled.')
c('C120','partial',['Argo.Html.'+x for x in ['C120_stats','C120_fields','C120_path_partial','C120_script_partial','C120_path_false','C120_script_false']],'False: the link of an app in a directory with an escape in its name (C120_path_false), and the name of an app just installed, which the script inserts as HTML (C120_script_false).')
c('C130','partial',['Argo.Toml.'+x for x in ['C130_file_partial','C130_restart_partial','C130_backslash_false','C130_newline_false','C130_speed_false','C130_refused_false','C130_stuck_false','C130_control_false','C130_nul_false','C130_empty_false']],'Proved for every configuration whose interface names have no backslash or line end (Savable); false otherwise, for every such configuration (the _false theorems are general). The encoder of github.com/burntsushi/toml v0.2.0 is modelled on the types of TomlConfig; the reader is a separate specification of TOML 0.4 without floats, dates, arrays and multi-line strings.')
c('C131','partial',['Argo.Html.'+x for x in ['C131_page', 'C131_rows_partial', 'C131_row_false', 'C131_list_false', 'C131_saved_partial', 'C131_saved_false', 'C131_open_false', 'C131_types_partial', 'C131_types_false', 'C131_inputs']],'Adding an interface only adds a row to the list of the page; rows, inputs of the dialog and settings are described for every history. False: configured interfaces are not listed, added ones are never saved, opening the dialog saves the settings, three of the five types end the program, speed and file are never read.')
c('C132','proved',['Argo.Query.'+x for x in ['C132_query', 'C132_index', 'C132_other', 'C132_all']],'From the bytes of the address to the JSON reply, for every way to write the parameters and both behaviours of net/url; categories that are not ASCII list nothing, except through the two characters that fold to ASCII letters.')
c('C133','partial',['Argo.Config.'+x for x in ['C133_post','C133_page_partial','C133_rounded_partial','C133_huge_false','C133_refused_iff']],'C133_post is the exact effect of every body (bytes) posted to /admin. What the settings page posts is what its form says for every text and for numbers up to 2^53 (C133_page_partial); numbers below 2^63 are stored to within the rounding of a double (C133_rounded_partial); false for numbers from 2^63 on, for which the whole submission is refused (C133_huge_false), and only for those (C133_refused_iff).')
c('C134','partial',['Argo.Toml.'+x for x in ['C134_entered_partial','C134_always_partial','C134_certificate_false','C134_nul_false','C134_huge_false']],'From what is entered in the settings page, through the bytes posted and the bytes of argo.conf, to the configuration of the next start, after any bodies posted before. False: the certificate is never kept, a text with a NUL makes a file on which argo cannot be started, and one number of 2^63 or more drops the submission. Numbers between 2^53 and 2^63 are rounded as a double.')
c('C135','partial',['Argo.Log.'+x for x in ['C135_which','C135_entry','C135_control_false']],'For requests whose target is a path or an asterisk (absolute-form targets are a parameter). Whether control characters are refused depends on the version of net/url; false for versions before Go 1.12 (C135_control_false).')
c('C136','partial',['Argo.Toml.'+x for x in ['C136_missing','C136_next_partial','C136_backup','C136_empty_false','C136_broken_false','C136_lost_false','C136_mixed_false']],'C136_next_partial: what is in argo.conf after dying at any point, and what the next start has if it is the old or the whole new text. False: in every save there is a point after which argo starts with the defaults (C136_empty_false), after which the first settings saved overwrite the backup (C136_lost_false), and one after which it cannot be started (C136_broken_false); and one after each line before the interfaces, after which it starts with the settings up to there, the defaults for the others and no interfaces (C136_mixed_false, general). The owner can always get the old settings back from one of the two files, before anything else is saved (C136_backup).')
