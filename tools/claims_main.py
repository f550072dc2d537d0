M='Argo.Main.'
def km(pid,status,thms,note=''): c(pid,status,[x if x.startswith('Argo.') else M+x for x in thms],note)
km('C67','proved',['C67_run','C67_statistics'],'Any sort routine meeting the contract of sort.Sort; counters are 64-bit, so the count is modulo 2^64.')
km('C68','proved',['C68_filter','C68_default'])
km('C69','proved',['C69_order','C69_progress'])
km('C70','proved',['C70_index','C70_all','C70_partition'],'strings.EqualFold is a parameter.')
km('C71','partial',['C71_by_index','C71_by_pgn','C71_shipped','C71_link','C71_panic_iff','C71_false','C71_parts','C71_number','C71_large','C71_malformed','C71_negative_false'],'False of the code for negative numbers: the handler panics exactly on them (C71_panic_iff, C71_false). Everything else is proved for every table and key.')
km('C72','partial',['Control.C72_false','Control.C72_get_partial'],'False of the code: no goroutine receives from the command channel, so in no schedule is a POST answered. Other methods are answered.')
km('C81','proved',['C81_outputs','C81_crash_iff'])
km('C82','proved',['C82_client','C82_caught_up'])
km('C92','proved',['C92_safe','C92_progress','C92_any'],'For messages the interfaces made (GenuineInput: decodings of received messages or imported file lines, iterated in any order).')
km('C93','partial',['C93_any','C93_any_complete','C93_origin','C93_ngt','C93_complete','Argo.Iface.C91_false','Argo.Canusb.C96_false'],'C93_any and C93_any_complete hold for every input of every kind and number of interfaces. False only in that a CANUSB delivers continuation frames without a beginning (C91_false) and packets mixed between adapters (C96_false); for streams without those and without crashing data: C93_origin, C93_complete.')
km('C94','proved',['C94_catch_up','C94_statistics'])
km('C95','partial',['C95_partial','C95_false'],'False of the code: Print shows only the fields numbered below the number of values (C95_false); C95_partial is the exact set of fields shown.')
km('C97','proved',['C97_client','C97_caught_up'])
km('C98','proved',['C98_cause','C98_ngt_deadly','C98_canusb_deadly','C98_ngt_fatal','C98_canusb_fatal','C98_runs'],'For the interfaces, the loop and the hubs, with the shipped tables and settings that do not change (C110). C98_deadly and C98_harmless: exactly which messages the decoder always, and never, dies of; only for address claims of no or six bytes and for overrunning NGT-1 frames does it depend on the memory behind the data.')
claims[-1]['theorems'] += ['Argo.Iface.C98_deadly','Argo.Iface.C98_harmless']
c('C99','proved',[M+x for x in ['C99_contents','C99_complete','C99_field','C99_wire']]+['Argo.Signalk.C99_delta'],'For the shipped tables and mapping file. Encoding the delta as JSON is a parameter (see C104); C99_wire is for an NGT-1, frames whose PGN has one definition without repetition and a total encoder.')
J='Argo.Json.'
c('C104','proved',[J+x for x in ['C104_delta','C104_total','C104_client','C104_wire']],'The text of a float is a parameter (any JSON number), as is the local time zone (offsets below a day) and the clock (years 0 to 9999). C104_total is for messages decoded from the bus.')
c('C105','partial',[J+x for x in ['C105_counters','C105_client','C105_index','C105_details','C105_uuid','C105_install_partial','C105_install_false']],'False only of the reply to an installation (C105_install_false); C105_install_partial covers texts that need no escape. Details of a definition are for the shipped table and lookup tables, JSON only. The texts of resolutions that are not codes are a parameter (any JSON number).')
km('C106','proved',['C106_accepted'],'strconv.ParseInt (base 0) and strings.ToUpper are parameters.')
km('C107','partial',['C107_texts','C107_checks','C107_guarded','C107_interfaces','C107_servers','C107_listen_false','C107_broker','C107_level_partial','C107_option','C107_level_false','C107_messages','C107_saved_false'],'False of the listening address and TLS of the server, of the level none in lower case and of the file saved to (the _false theorems).')
c('C108','proved',[J+'C108_explain'],'The texts of resolutions that are not codes are a parameter (any JSON number).')
c('C109','partial',['Argo.Xml.'+x for x in ['C109_details_partial','C109_claim_false','C109_tables_false']],'False of tables of names and of PGN 60928 (the _false theorems); C109_details_partial is the exact contents otherwise. Texts of factors are a parameter.')
km('C110','partial',['C110_published','C110_crash_iff','C110_false','Argo.Json.C110_shipped','Argo.Json.C110_shipped_crash'],'False when the broker is not enabled in the file (C110_false); C110_crash_iff is the exact set of histories. C110_shipped and C110_shipped_crash: the same for the shipped tables and mapping file and messages from ParsePacket or a file, with the JSON bytes that are published; there Print and Delta are proved not to panic, in the other two it is a hypothesis.')
R='Argo.Main.Races.'
c('C111','partial',[R+x for x in ['C111_free_partial','C111_adapters','C111_settings','C111_connections','C111_false']],'False of the code (C111_false); C111_free_partial is freedom from races otherwise, C111_adapters an exact characterisation for the registry of fast packets. The accesses of each goroutine are read off the code; what libraries synchronise besides net/http.ServeMux is left out.')
c('C118','partial',['Argo.Main.'+x for x in ['C118_field','C118_received','C118_false','C118_false_voltage']]+['Argo.Json.'+x for x in ['C118_client','C118_complete','C118_ngt','C118_canusb','C118_fast']],'Every message of every PGN that is not empty, and not one byte of PGN 65001-65003 (C118_field), with all schedules (C118_client, C118_complete; C118_ngt from the bytes on the wire, C118_canusb from the messages of any number of CANUSB interfaces, C118_fast from the frames of a fast packet). False of those: an empty message is reported as zeros (C118_false), one byte as a voltage (C118_false_voltage). The text of a system time message is C61/C99. Texts of values are as fmt prints them (Prints).')
