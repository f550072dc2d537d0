def kr(pid,st,ths,note=''):
    c(pid,st,['Argo.Routes.'+t for t in ths],note)
kr('C86','partial',['C86_api','C86_websockets','C86_pages','C86_apps','C86_clean','C86_disabled','C86_installed_url','C86_link_partial','C86_details_partial','C86_link_false','C86_details_false','C86_install_shadowed_false','C86_exposed_false','C86_startup_false'],'API, WebSocket endpoints and pages proved for every path, registration order and app list. False: details links are 404s, prefix routes shadow /apps/install and expose other packages, links of renamed apps, requests during startup. ServeMux and gorilla/mux matching are modelled from their documentation.')
kr('C112','proved',['C112_files','C112_redirects','C112_addresses','C112_app','C112_link','C112_installed'],'path.Clean, filepath.Join, cleanPath of the routers and http.FileServer are modelled from their documentation; symbolic links are not modelled.')
