H='Argo.Hub.'
def kh(pid,status,thms,note=''): c(pid,status,[H+x for x in thms],note)
kh('C63','proved',['C63_delivery','C63_prefix','C63_drop_iff','C63_close'])
kh('C64','proved',['C64_no_panic','C64_hub_never_waits','C64_broadcast_ends'])
kh('C65','partial',['C65_unregister_partial','C65_false'],'False of the code: unregistering a client that the hub has already dropped closes a closed channel (C65_false). Proved: an unregister request for a client that is still registered is safe in every schedule. No code path of argo sends an unregister request.')
kh('C66','proved',['C66_alone','C66_isolation'])
kh('C87','proved',['C87_stalled','C87_backlog'])
