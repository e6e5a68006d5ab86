import Verif.Model.Gen
import Verif.Model.Tables.All
/-!
# scripts/generate/configs/*.json

Generated by scripts/gen_configs.py (text translation, same order).
-/
namespace Verif

/-- A configuration (generator.go:34-62 `GenerateConfig`) with the table that is committed under its `directiveMapName`.  The comment is left out. -/
structure TableConfig where
  path : String
  table : DirTable
  filter : List Str := []
  override : MaskMap := []

/-- scripts/generate/configs/geoip2_config.json. -/
def config_geoip2 : TableConfig where
  path := "geoip2_config.json"
  table := geoip2Directives

/-- scripts/generate/configs/headersmore_config.json. -/
def config_headersmore : TableConfig where
  path := "headersmore_config.json"
  table := headersMoreDirectives

/-- scripts/generate/configs/lua_config.json. -/
def config_lua : TableConfig where
  path := "lua_config.json"
  table := luaDirectives
  override := [
    (c!"content_by_lua_block", [[c!"ngxHTTPLocConf", c!"ngxHTTPLifConf", c!"ngxConfTake1"]]),
    (c!"rewrite_by_lua_block", [[c!"ngxHTTPMainConf", c!"ngxHTTPSrvConf", c!"ngxHTTPLocConf", c!"ngxHTTPLifConf", c!"ngxConfTake1"]]),
    (c!"ssl_certificate_by_lua_block", [[c!"ngxHTTPMainConf", c!"ngxHTTPSrvConf", c!"ngxConfTake1"]]),
    (c!"ssl_session_fetch_by_lua_block", [[c!"ngxHTTPMainConf", c!"ngxConfTake1"]]),
    (c!"ssl_session_store_by_lua_block", [[c!"ngxHTTPMainConf", c!"ngxConfTake1"]]),
    (c!"set_by_lua_block", [[c!"ngxHTTPSrvConf", c!"ngxHTTPSifConf", c!"ngxHTTPLocConf", c!"ngxHTTPLifConf", c!"ngxConfTake2"]]),
    (c!"ssl_client_hello_by_lua_block", [[c!"ngxHTTPMainConf", c!"ngxHTTPSrvConf", c!"ngxConfTake1"]]),
    (c!"body_filter_by_lua_block", [[c!"ngxHTTPMainConf", c!"ngxHTTPSrvConf", c!"ngxHTTPLocConf", c!"ngxHTTPLifConf", c!"ngxConfTake1"]]),
    (c!"init_by_lua_block", [[c!"ngxHTTPMainConf", c!"ngxConfTake1"]]),
    (c!"init_worker_by_lua_block", [[c!"ngxHTTPMainConf", c!"ngxConfTake1"]]),
    (c!"header_filter_by_lua_block", [[c!"ngxHTTPMainConf", c!"ngxHTTPSrvConf", c!"ngxHTTPLocConf", c!"ngxHTTPLifConf", c!"ngxConfTake1"]]),
    (c!"log_by_lua_block", [[c!"ngxHTTPMainConf", c!"ngxHTTPSrvConf", c!"ngxHTTPLocConf", c!"ngxHTTPLifConf", c!"ngxConfTake1"]]),
    (c!"access_by_lua_block", [[c!"ngxHTTPMainConf", c!"ngxHTTPSrvConf", c!"ngxHTTPLocConf", c!"ngxHTTPLifConf", c!"ngxConfTake1"]]),
    (c!"balancer_by_lua_block", [[c!"ngxHTTPUpsConf", c!"ngxConfTake1"]]),
    (c!"server_rewrite_by_lua_block", [[c!"ngxHTTPMainConf", c!"ngxHTTPSrvConf", c!"ngxConfTake1"]]),
    (c!"exit_worker_by_lua_block", [[c!"ngxHTTPMainConf", c!"ngxConfTake1"]])]

/-- scripts/generate/configs/nap_v4_config.json. -/
def config_nap_v4 : TableConfig where
  path := "nap_v4_config.json"
  table := appProtectWAFv4Directives
  override := [
    (c!"app_protect_enable", [[c!"ngxHTTPMainConf", c!"ngxHTTPSrvConf", c!"ngxHTTPLocConf", c!"ngxConfFlag"]]),
    (c!"app_protect_security_log_enable", [[c!"ngxHTTPMainConf", c!"ngxHTTPSrvConf", c!"ngxHTTPLocConf", c!"ngxConfFlag"]])]

/-- scripts/generate/configs/nap_v5_config.json. -/
def config_nap_v5 : TableConfig where
  path := "nap_v5_config.json"
  table := appProtectWAFv5Directives
  override := [
    (c!"app_protect_enable", [[c!"ngxHTTPMainConf", c!"ngxHTTPSrvConf", c!"ngxHTTPLocConf", c!"ngxConfFlag"]]),
    (c!"app_protect_security_log_enable", [[c!"ngxHTTPMainConf", c!"ngxHTTPSrvConf", c!"ngxHTTPLocConf", c!"ngxConfFlag"]])]

/-- scripts/generate/configs/njs_config.json. -/
def config_njs : TableConfig where
  path := "njs_config.json"
  table := njsDirectives

/-- scripts/generate/configs/nplus_R33_config.json. -/
def config_nplus_R33 : TableConfig where
  path := "nplus_R33_config.json"
  table := nginxPlusR33Directives
  filter := [c!"epoll_events", c!"health_check_header", c!"body", c!"body_size", c!"proxy", c!"http2_pool_size", c!"post_action", c!"pcre_buffer", c!"degrade", c!"gzip_window", c!"proxy_downstream_buffer", c!"degradation", c!"ssi_ignore_recycled_buffers", c!"uwsgi_string", c!"proxy_ssl_session_cache", c!"proxy_upstream_buffer", c!"eventport_events", c!"expect", c!"gzip_hash", c!"require", c!"proxy_keepalive", c!"http2_streams_index_size", c!"send", c!"kqueue_changes", c!"header", c!"devpoll_events", c!"kqueue_events", c!"postpone_gzipping", c!"acceptex_read", c!"iocp_threads", c!"devpoll_changes", c!"post_acceptex", c!"open_file_cache_events", c!"gzip_no_buffer", c!"deployment_context"]
  override := [
    (c!"if", [[c!"ngxHTTPSrvConf", c!"ngxHTTPLocConf", c!"ngxConfBlock", c!"ngxConfExpr", c!"ngxConf1More"]]),
    (c!"connect_timeout", [[c!"ngxMgmtMainConf", c!"ngxConfTake1"]]),
    (c!"read_timeout", [[c!"ngxMgmtMainConf", c!"ngxConfTake1"]]),
    (c!"resolver", [[c!"ngxHTTPMainConf", c!"ngxHTTPSrvConf", c!"ngxHTTPLocConf", c!"ngxConf1More"], [c!"ngxHTTPUpsConf", c!"ngxConf1More"], [c!"ngxMailMainConf", c!"ngxMailSrvConf", c!"ngxConf1More"], [c!"ngxMgmtMainConf", c!"ngxConf1More"], [c!"ngxStreamMainConf", c!"ngxStreamSrvConf", c!"ngxConf1More"], [c!"ngxStreamUpsConf", c!"ngxConf1More"]]),
    (c!"resolver_timeout", [[c!"ngxHTTPMainConf", c!"ngxHTTPSrvConf", c!"ngxHTTPLocConf", c!"ngxConfTake1"], [c!"ngxHTTPUpsConf", c!"ngxConfTake1"], [c!"ngxMailMainConf", c!"ngxMailSrvConf", c!"ngxConfTake1"], [c!"ngxMgmtMainConf", c!"ngxConfTake1"], [c!"ngxStreamMainConf", c!"ngxStreamSrvConf", c!"ngxConfTake1"], [c!"ngxStreamUpsConf", c!"ngxConfTake1"]]),
    (c!"send_timeout", [[c!"ngxHTTPMainConf", c!"ngxHTTPSrvConf", c!"ngxHTTPLocConf", c!"ngxConfTake1"], [c!"ngxMgmtMainConf", c!"ngxConfTake1"]]),
    (c!"ssl", [[c!"ngxMgmtMainConf", c!"ngxConfFlag"]]),
    (c!"ssl_certificate", [[c!"ngxHTTPMainConf", c!"ngxHTTPSrvConf", c!"ngxConfTake1"], [c!"ngxMailMainConf", c!"ngxMailSrvConf", c!"ngxConfTake1"], [c!"ngxMgmtMainConf", c!"ngxConfTake1"], [c!"ngxStreamMainConf", c!"ngxStreamSrvConf", c!"ngxConfTake1"]]),
    (c!"ssl_certificate_key", [[c!"ngxHTTPMainConf", c!"ngxHTTPSrvConf", c!"ngxConfTake1"], [c!"ngxMailMainConf", c!"ngxMailSrvConf", c!"ngxConfTake1"], [c!"ngxMgmtMainConf", c!"ngxConfTake1"], [c!"ngxStreamMainConf", c!"ngxStreamSrvConf", c!"ngxConfTake1"]]),
    (c!"ssl_ciphers", [[c!"ngxHTTPMainConf", c!"ngxHTTPSrvConf", c!"ngxConfTake1"], [c!"ngxMailMainConf", c!"ngxMailSrvConf", c!"ngxConfTake1"], [c!"ngxMgmtMainConf", c!"ngxConfTake1"], [c!"ngxStreamMainConf", c!"ngxStreamSrvConf", c!"ngxConfTake1"]]),
    (c!"ssl_crl", [[c!"ngxHTTPMainConf", c!"ngxHTTPSrvConf", c!"ngxConfTake1"], [c!"ngxMailMainConf", c!"ngxMailSrvConf", c!"ngxConfTake1"], [c!"ngxMgmtMainConf", c!"ngxConfTake1"], [c!"ngxStreamMainConf", c!"ngxStreamSrvConf", c!"ngxConfTake1"]]),
    (c!"ssl_name", [[c!"ngxMgmtMainConf", c!"ngxConfTake1"]]),
    (c!"ssl_password_file", [[c!"ngxHTTPMainConf", c!"ngxHTTPSrvConf", c!"ngxConfTake1"], [c!"ngxMailMainConf", c!"ngxMailSrvConf", c!"ngxConfTake1"], [c!"ngxMgmtMainConf", c!"ngxConfTake1"], [c!"ngxStreamMainConf", c!"ngxStreamSrvConf", c!"ngxConfTake1"]]),
    (c!"ssl_protocols", [[c!"ngxHTTPMainConf", c!"ngxHTTPSrvConf", c!"ngxConf1More"], [c!"ngxMailMainConf", c!"ngxMailSrvConf", c!"ngxConf1More"], [c!"ngxMgmtMainConf", c!"ngxConf1More"], [c!"ngxStreamMainConf", c!"ngxStreamSrvConf", c!"ngxConf1More"]]),
    (c!"ssl_server_name", [[c!"ngxMgmtMainConf", c!"ngxConfFlag"]]),
    (c!"ssl_trusted_certificate", [[c!"ngxHTTPMainConf", c!"ngxHTTPSrvConf", c!"ngxConfTake1"], [c!"ngxMailMainConf", c!"ngxMailSrvConf", c!"ngxConfTake1"], [c!"ngxMgmtMainConf", c!"ngxConfTake1"], [c!"ngxStreamMainConf", c!"ngxStreamSrvConf", c!"ngxConfTake1"]]),
    (c!"ssl_verify", [[c!"ngxMgmtMainConf", c!"ngxConfFlag"]]),
    (c!"ssl_verify_depth", [[c!"ngxHTTPMainConf", c!"ngxHTTPSrvConf", c!"ngxConfTake1"], [c!"ngxMailMainConf", c!"ngxMailSrvConf", c!"ngxConfTake1"], [c!"ngxMgmtMainConf", c!"ngxConfTake1"], [c!"ngxStreamMainConf", c!"ngxStreamSrvConf", c!"ngxConfTake1"]]),
    (c!"usage_report", [[c!"ngxMgmtMainConf", c!"ngxConfNoArgs", c!"ngxConfTake12"]]),
    (c!"uuid_file", [[c!"ngxMgmtMainConf", c!"ngxConfNoArgs", c!"ngxConfTake1"]]),
    (c!"enforce_initial_report", [[c!"ngxMgmtMainConf", c!"ngxConfFlag"]]),
    (c!"license_token", [[c!"ngxMgmtMainConf", c!"ngxConfTake1"]]),
    (c!"state_path", [[c!"ngxMgmtMainConf", c!"ngxConfTake1"]]),
    (c!"zone_sync", [[c!"ngxStreamSrvConf", c!"ngxConfNoArgs"]]),
    (c!"ssl_ocsp", [[c!"ngxHTTPMainConf", c!"ngxHTTPSrvConf", c!"ngxConfTake1"], [c!"ngxStreamMainConf", c!"ngxStreamSrvConf", c!"ngxConfTake1"]])]

/-- scripts/generate/configs/nplus_R34_config.json. -/
def config_nplus_R34 : TableConfig where
  path := "nplus_R34_config.json"
  table := nginxPlusR34Directives
  filter := [c!"epoll_events", c!"health_check_header", c!"body", c!"body_size", c!"http2_pool_size", c!"post_action", c!"pcre_buffer", c!"degrade", c!"gzip_window", c!"proxy_downstream_buffer", c!"degradation", c!"ssi_ignore_recycled_buffers", c!"uwsgi_string", c!"proxy_ssl_session_cache", c!"proxy_upstream_buffer", c!"eventport_events", c!"expect", c!"gzip_hash", c!"require", c!"proxy_keepalive", c!"http2_streams_index_size", c!"send", c!"kqueue_changes", c!"header", c!"devpoll_events", c!"kqueue_events", c!"postpone_gzipping", c!"acceptex_read", c!"iocp_threads", c!"devpoll_changes", c!"post_acceptex", c!"open_file_cache_events", c!"gzip_no_buffer", c!"deployment_context", c!"proxy_location"]
  override := [
    (c!"if", [[c!"ngxHTTPSrvConf", c!"ngxHTTPLocConf", c!"ngxConfBlock", c!"ngxConfExpr", c!"ngxConf1More"]]),
    (c!"connect_timeout", [[c!"ngxMgmtMainConf", c!"ngxConfTake1"]]),
    (c!"read_timeout", [[c!"ngxMgmtMainConf", c!"ngxConfTake1"]]),
    (c!"resolver", [[c!"ngxHTTPMainConf", c!"ngxHTTPSrvConf", c!"ngxHTTPLocConf", c!"ngxConf1More"], [c!"ngxHTTPUpsConf", c!"ngxConf1More"], [c!"ngxMailMainConf", c!"ngxMailSrvConf", c!"ngxConf1More"], [c!"ngxMgmtMainConf", c!"ngxConf1More"], [c!"ngxStreamMainConf", c!"ngxStreamSrvConf", c!"ngxConf1More"], [c!"ngxStreamUpsConf", c!"ngxConf1More"]]),
    (c!"resolver_timeout", [[c!"ngxHTTPMainConf", c!"ngxHTTPSrvConf", c!"ngxHTTPLocConf", c!"ngxConfTake1"], [c!"ngxHTTPUpsConf", c!"ngxConfTake1"], [c!"ngxMailMainConf", c!"ngxMailSrvConf", c!"ngxConfTake1"], [c!"ngxMgmtMainConf", c!"ngxConfTake1"], [c!"ngxStreamMainConf", c!"ngxStreamSrvConf", c!"ngxConfTake1"], [c!"ngxStreamUpsConf", c!"ngxConfTake1"]]),
    (c!"send_timeout", [[c!"ngxHTTPMainConf", c!"ngxHTTPSrvConf", c!"ngxHTTPLocConf", c!"ngxConfTake1"], [c!"ngxMgmtMainConf", c!"ngxConfTake1"]]),
    (c!"ssl", [[c!"ngxMgmtMainConf", c!"ngxConfFlag"]]),
    (c!"ssl_certificate", [[c!"ngxHTTPMainConf", c!"ngxHTTPSrvConf", c!"ngxConfTake1"], [c!"ngxMailMainConf", c!"ngxMailSrvConf", c!"ngxConfTake1"], [c!"ngxMgmtMainConf", c!"ngxConfTake1"], [c!"ngxStreamMainConf", c!"ngxStreamSrvConf", c!"ngxConfTake1"]]),
    (c!"ssl_certificate_key", [[c!"ngxHTTPMainConf", c!"ngxHTTPSrvConf", c!"ngxConfTake1"], [c!"ngxMailMainConf", c!"ngxMailSrvConf", c!"ngxConfTake1"], [c!"ngxMgmtMainConf", c!"ngxConfTake1"], [c!"ngxStreamMainConf", c!"ngxStreamSrvConf", c!"ngxConfTake1"]]),
    (c!"ssl_ciphers", [[c!"ngxHTTPMainConf", c!"ngxHTTPSrvConf", c!"ngxConfTake1"], [c!"ngxMailMainConf", c!"ngxMailSrvConf", c!"ngxConfTake1"], [c!"ngxMgmtMainConf", c!"ngxConfTake1"], [c!"ngxStreamMainConf", c!"ngxStreamSrvConf", c!"ngxConfTake1"]]),
    (c!"ssl_crl", [[c!"ngxHTTPMainConf", c!"ngxHTTPSrvConf", c!"ngxConfTake1"], [c!"ngxMailMainConf", c!"ngxMailSrvConf", c!"ngxConfTake1"], [c!"ngxMgmtMainConf", c!"ngxConfTake1"], [c!"ngxStreamMainConf", c!"ngxStreamSrvConf", c!"ngxConfTake1"], [c!"ngxHTTPOIDCConf", c!"ngxConfTake1"]]),
    (c!"ssl_name", [[c!"ngxMgmtMainConf", c!"ngxConfTake1"]]),
    (c!"ssl_password_file", [[c!"ngxHTTPMainConf", c!"ngxHTTPSrvConf", c!"ngxConfTake1"], [c!"ngxMailMainConf", c!"ngxMailSrvConf", c!"ngxConfTake1"], [c!"ngxMgmtMainConf", c!"ngxConfTake1"], [c!"ngxStreamMainConf", c!"ngxStreamSrvConf", c!"ngxConfTake1"]]),
    (c!"ssl_protocols", [[c!"ngxHTTPMainConf", c!"ngxHTTPSrvConf", c!"ngxConf1More"], [c!"ngxMailMainConf", c!"ngxMailSrvConf", c!"ngxConf1More"], [c!"ngxMgmtMainConf", c!"ngxConf1More"], [c!"ngxStreamMainConf", c!"ngxStreamSrvConf", c!"ngxConf1More"]]),
    (c!"ssl_server_name", [[c!"ngxMgmtMainConf", c!"ngxConfFlag"]]),
    (c!"ssl_trusted_certificate", [[c!"ngxHTTPMainConf", c!"ngxHTTPSrvConf", c!"ngxConfTake1"], [c!"ngxMailMainConf", c!"ngxMailSrvConf", c!"ngxConfTake1"], [c!"ngxMgmtMainConf", c!"ngxConfTake1"], [c!"ngxStreamMainConf", c!"ngxStreamSrvConf", c!"ngxConfTake1"], [c!"ngxHTTPOIDCConf", c!"ngxConfTake1"]]),
    (c!"ssl_verify", [[c!"ngxMgmtMainConf", c!"ngxConfFlag"]]),
    (c!"ssl_verify_depth", [[c!"ngxHTTPMainConf", c!"ngxHTTPSrvConf", c!"ngxConfTake1"], [c!"ngxMailMainConf", c!"ngxMailSrvConf", c!"ngxConfTake1"], [c!"ngxMgmtMainConf", c!"ngxConfTake1"], [c!"ngxStreamMainConf", c!"ngxStreamSrvConf", c!"ngxConfTake1"]]),
    (c!"usage_report", [[c!"ngxMgmtMainConf", c!"ngxConfNoArgs", c!"ngxConfTake12"]]),
    (c!"uuid_file", [[c!"ngxMgmtMainConf", c!"ngxConfNoArgs", c!"ngxConfTake1"]]),
    (c!"enforce_initial_report", [[c!"ngxMgmtMainConf", c!"ngxConfFlag"]]),
    (c!"license_token", [[c!"ngxMgmtMainConf", c!"ngxConfTake1"]]),
    (c!"state_path", [[c!"ngxMgmtMainConf", c!"ngxConfTake1"]]),
    (c!"zone_sync", [[c!"ngxStreamSrvConf", c!"ngxConfNoArgs"]]),
    (c!"proxy", [[c!"ngxMailMainConf", c!"ngxMailSrvConf", c!"ngxConfFlag"], [c!"ngxMgmtMainConf", c!"ngxConfTake1"]]),
    (c!"proxy_username", [[c!"ngxMgmtMainConf", c!"ngxConfTake1"]]),
    (c!"proxy_password", [[c!"ngxMgmtMainConf", c!"ngxConfTake1"]]),
    (c!"client_id", [[c!"ngxHTTPOIDCConf", c!"ngxConfTake1"]]),
    (c!"client_secret", [[c!"ngxHTTPOIDCConf", c!"ngxConfTake1"]]),
    (c!"issuer", [[c!"ngxHTTPOIDCConf", c!"ngxConfTake1"]]),
    (c!"config_url", [[c!"ngxHTTPOIDCConf", c!"ngxConfTake1"]]),
    (c!"cookie_name", [[c!"ngxHTTPOIDCConf", c!"ngxConfTake1"]]),
    (c!"extra_auth_args", [[c!"ngxHTTPOIDCConf", c!"ngxConfTake1"]]),
    (c!"redirect_uri", [[c!"ngxHTTPOIDCConf", c!"ngxConfTake1"]]),
    (c!"scope", [[c!"ngxHTTPOIDCConf", c!"ngxConfTake1"]]),
    (c!"session_store", [[c!"ngxHTTPOIDCConf", c!"ngxConfTake1"]]),
    (c!"session_timeout", [[c!"ngxHTTPOIDCConf", c!"ngxConfTake1"]]),
    (c!"ssl_ocsp", [[c!"ngxHTTPMainConf", c!"ngxHTTPSrvConf", c!"ngxConfTake1"], [c!"ngxStreamMainConf", c!"ngxStreamSrvConf", c!"ngxConfTake1"]])]

/-- scripts/generate/configs/nplus_R35_config.json. -/
def config_nplus_R35 : TableConfig where
  path := "nplus_R35_config.json"
  table := nginxPlusR35Directives
  filter := [c!"epoll_events", c!"health_check_header", c!"body", c!"body_size", c!"http2_pool_size", c!"post_action", c!"pcre_buffer", c!"degrade", c!"gzip_window", c!"proxy_downstream_buffer", c!"degradation", c!"ssi_ignore_recycled_buffers", c!"uwsgi_string", c!"proxy_ssl_session_cache", c!"proxy_upstream_buffer", c!"eventport_events", c!"expect", c!"gzip_hash", c!"require", c!"proxy_keepalive", c!"http2_streams_index_size", c!"send", c!"kqueue_changes", c!"header", c!"devpoll_events", c!"kqueue_events", c!"postpone_gzipping", c!"acceptex_read", c!"iocp_threads", c!"devpoll_changes", c!"post_acceptex", c!"open_file_cache_events", c!"gzip_no_buffer", c!"deployment_context", c!"proxy_location", c!"ssl_verify_digests"]
  override := [
    (c!"if", [[c!"ngxHTTPSrvConf", c!"ngxHTTPLocConf", c!"ngxConfBlock", c!"ngxConfExpr", c!"ngxConf1More"]]),
    (c!"connect_timeout", [[c!"ngxMgmtMainConf", c!"ngxConfTake1"]]),
    (c!"read_timeout", [[c!"ngxMgmtMainConf", c!"ngxConfTake1"]]),
    (c!"resolver", [[c!"ngxHTTPMainConf", c!"ngxHTTPSrvConf", c!"ngxHTTPLocConf", c!"ngxConf1More"], [c!"ngxHTTPUpsConf", c!"ngxConf1More"], [c!"ngxMailMainConf", c!"ngxMailSrvConf", c!"ngxConf1More"], [c!"ngxMgmtMainConf", c!"ngxConf1More"], [c!"ngxStreamMainConf", c!"ngxStreamSrvConf", c!"ngxConf1More"], [c!"ngxStreamUpsConf", c!"ngxConf1More"]]),
    (c!"resolver_timeout", [[c!"ngxHTTPMainConf", c!"ngxHTTPSrvConf", c!"ngxHTTPLocConf", c!"ngxConfTake1"], [c!"ngxHTTPUpsConf", c!"ngxConfTake1"], [c!"ngxMailMainConf", c!"ngxMailSrvConf", c!"ngxConfTake1"], [c!"ngxMgmtMainConf", c!"ngxConfTake1"], [c!"ngxStreamMainConf", c!"ngxStreamSrvConf", c!"ngxConfTake1"], [c!"ngxStreamUpsConf", c!"ngxConfTake1"]]),
    (c!"send_timeout", [[c!"ngxHTTPMainConf", c!"ngxHTTPSrvConf", c!"ngxHTTPLocConf", c!"ngxConfTake1"], [c!"ngxMgmtMainConf", c!"ngxConfTake1"]]),
    (c!"ssl", [[c!"ngxMgmtMainConf", c!"ngxConfFlag"]]),
    (c!"ssl_certificate", [[c!"ngxHTTPMainConf", c!"ngxHTTPSrvConf", c!"ngxConfTake1"], [c!"ngxMailMainConf", c!"ngxMailSrvConf", c!"ngxConfTake1"], [c!"ngxMgmtMainConf", c!"ngxConfTake1"], [c!"ngxStreamMainConf", c!"ngxStreamSrvConf", c!"ngxConfTake1"]]),
    (c!"ssl_certificate_key", [[c!"ngxHTTPMainConf", c!"ngxHTTPSrvConf", c!"ngxConfTake1"], [c!"ngxMailMainConf", c!"ngxMailSrvConf", c!"ngxConfTake1"], [c!"ngxMgmtMainConf", c!"ngxConfTake1"], [c!"ngxStreamMainConf", c!"ngxStreamSrvConf", c!"ngxConfTake1"]]),
    (c!"ssl_ciphers", [[c!"ngxHTTPMainConf", c!"ngxHTTPSrvConf", c!"ngxConfTake1"], [c!"ngxMailMainConf", c!"ngxMailSrvConf", c!"ngxConfTake1"], [c!"ngxMgmtMainConf", c!"ngxConfTake1"], [c!"ngxStreamMainConf", c!"ngxStreamSrvConf", c!"ngxConfTake1"]]),
    (c!"ssl_crl", [[c!"ngxHTTPMainConf", c!"ngxHTTPSrvConf", c!"ngxConfTake1"], [c!"ngxMailMainConf", c!"ngxMailSrvConf", c!"ngxConfTake1"], [c!"ngxMgmtMainConf", c!"ngxConfTake1"], [c!"ngxStreamMainConf", c!"ngxStreamSrvConf", c!"ngxConfTake1"], [c!"ngxHTTPOIDCConf", c!"ngxConfTake1"]]),
    (c!"ssl_name", [[c!"ngxMgmtMainConf", c!"ngxConfTake1"]]),
    (c!"ssl_password_file", [[c!"ngxHTTPMainConf", c!"ngxHTTPSrvConf", c!"ngxConfTake1"], [c!"ngxMailMainConf", c!"ngxMailSrvConf", c!"ngxConfTake1"], [c!"ngxMgmtMainConf", c!"ngxConfTake1"], [c!"ngxStreamMainConf", c!"ngxStreamSrvConf", c!"ngxConfTake1"]]),
    (c!"ssl_protocols", [[c!"ngxHTTPMainConf", c!"ngxHTTPSrvConf", c!"ngxConf1More"], [c!"ngxMailMainConf", c!"ngxMailSrvConf", c!"ngxConf1More"], [c!"ngxMgmtMainConf", c!"ngxConf1More"], [c!"ngxStreamMainConf", c!"ngxStreamSrvConf", c!"ngxConf1More"]]),
    (c!"ssl_server_name", [[c!"ngxMgmtMainConf", c!"ngxConfFlag"]]),
    (c!"ssl_trusted_certificate", [[c!"ngxHTTPMainConf", c!"ngxHTTPSrvConf", c!"ngxConfTake1"], [c!"ngxMailMainConf", c!"ngxMailSrvConf", c!"ngxConfTake1"], [c!"ngxMgmtMainConf", c!"ngxConfTake1"], [c!"ngxStreamMainConf", c!"ngxStreamSrvConf", c!"ngxConfTake1"], [c!"ngxHTTPOIDCConf", c!"ngxConfTake1"]]),
    (c!"ssl_verify", [[c!"ngxMgmtMainConf", c!"ngxConfFlag"]]),
    (c!"ssl_verify_depth", [[c!"ngxHTTPMainConf", c!"ngxHTTPSrvConf", c!"ngxConfTake1"], [c!"ngxMailMainConf", c!"ngxMailSrvConf", c!"ngxConfTake1"], [c!"ngxMgmtMainConf", c!"ngxConfTake1"], [c!"ngxStreamMainConf", c!"ngxStreamSrvConf", c!"ngxConfTake1"]]),
    (c!"usage_report", [[c!"ngxMgmtMainConf", c!"ngxConfNoArgs", c!"ngxConfTake12"]]),
    (c!"uuid_file", [[c!"ngxMgmtMainConf", c!"ngxConfNoArgs", c!"ngxConfTake1"]]),
    (c!"enforce_initial_report", [[c!"ngxMgmtMainConf", c!"ngxConfFlag"]]),
    (c!"license_token", [[c!"ngxMgmtMainConf", c!"ngxConfTake1"]]),
    (c!"state_path", [[c!"ngxMgmtMainConf", c!"ngxConfTake1"]]),
    (c!"zone_sync", [[c!"ngxStreamSrvConf", c!"ngxConfNoArgs"]]),
    (c!"proxy", [[c!"ngxMailMainConf", c!"ngxMailSrvConf", c!"ngxConfFlag"], [c!"ngxMgmtMainConf", c!"ngxConfTake1"]]),
    (c!"proxy_username", [[c!"ngxMgmtMainConf", c!"ngxConfTake1"]]),
    (c!"proxy_password", [[c!"ngxMgmtMainConf", c!"ngxConfTake1"]]),
    (c!"client_id", [[c!"ngxHTTPOIDCConf", c!"ngxConfTake1"]]),
    (c!"client_secret", [[c!"ngxHTTPOIDCConf", c!"ngxConfTake1"]]),
    (c!"issuer", [[c!"ngxHTTPOIDCConf", c!"ngxConfTake1"]]),
    (c!"config_url", [[c!"ngxHTTPOIDCConf", c!"ngxConfTake1"]]),
    (c!"cookie_name", [[c!"ngxHTTPOIDCConf", c!"ngxConfTake1"]]),
    (c!"extra_auth_args", [[c!"ngxHTTPOIDCConf", c!"ngxConfTake1"]]),
    (c!"redirect_uri", [[c!"ngxHTTPOIDCConf", c!"ngxConfTake1"]]),
    (c!"scope", [[c!"ngxHTTPOIDCConf", c!"ngxConfTake1"]]),
    (c!"session_store", [[c!"ngxHTTPOIDCConf", c!"ngxConfTake1"]]),
    (c!"session_timeout", [[c!"ngxHTTPOIDCConf", c!"ngxConfTake1"]]),
    (c!"logout_token_hint", [[c!"ngxHTTPOIDCConf", c!"ngxConfFlag"]]),
    (c!"logout_uri", [[c!"ngxHTTPOIDCConf", c!"ngxConfTake1"]]),
    (c!"post_logout_uri", [[c!"ngxHTTPOIDCConf", c!"ngxConfTake1"]]),
    (c!"userinfo", [[c!"ngxHTTPOIDCConf", c!"ngxConfTake1"]]),
    (c!"ssl_ocsp", [[c!"ngxHTTPMainConf", c!"ngxHTTPSrvConf", c!"ngxConfTake1"], [c!"ngxStreamMainConf", c!"ngxStreamSrvConf", c!"ngxConfTake1"]])]

/-- scripts/generate/configs/nplus_R36_config.json. -/
def config_nplus_R36 : TableConfig where
  path := "nplus_R36_config.json"
  table := nginxPlusR36Directives
  filter := [c!"epoll_events", c!"health_check_header", c!"body", c!"body_size", c!"http2_pool_size", c!"post_action", c!"pcre_buffer", c!"degrade", c!"gzip_window", c!"proxy_downstream_buffer", c!"degradation", c!"ssi_ignore_recycled_buffers", c!"uwsgi_string", c!"proxy_ssl_session_cache", c!"proxy_upstream_buffer", c!"eventport_events", c!"expect", c!"gzip_hash", c!"require", c!"proxy_keepalive", c!"http2_streams_index_size", c!"send", c!"kqueue_changes", c!"header", c!"devpoll_events", c!"kqueue_events", c!"postpone_gzipping", c!"acceptex_read", c!"iocp_threads", c!"devpoll_changes", c!"post_acceptex", c!"open_file_cache_events", c!"gzip_no_buffer", c!"deployment_context", c!"proxy_location", c!"ssl_verify_digests"]
  override := [
    (c!"if", [[c!"ngxHTTPSrvConf", c!"ngxHTTPLocConf", c!"ngxConfBlock", c!"ngxConfExpr", c!"ngxConf1More"]]),
    (c!"connect_timeout", [[c!"ngxMgmtMainConf", c!"ngxConfTake1"]]),
    (c!"read_timeout", [[c!"ngxMgmtMainConf", c!"ngxConfTake1"]]),
    (c!"resolver", [[c!"ngxHTTPMainConf", c!"ngxHTTPSrvConf", c!"ngxHTTPLocConf", c!"ngxConf1More"], [c!"ngxHTTPUpsConf", c!"ngxConf1More"], [c!"ngxMailMainConf", c!"ngxMailSrvConf", c!"ngxConf1More"], [c!"ngxMgmtMainConf", c!"ngxConf1More"], [c!"ngxStreamMainConf", c!"ngxStreamSrvConf", c!"ngxConf1More"], [c!"ngxStreamUpsConf", c!"ngxConf1More"]]),
    (c!"resolver_timeout", [[c!"ngxHTTPMainConf", c!"ngxHTTPSrvConf", c!"ngxHTTPLocConf", c!"ngxConfTake1"], [c!"ngxHTTPUpsConf", c!"ngxConfTake1"], [c!"ngxMailMainConf", c!"ngxMailSrvConf", c!"ngxConfTake1"], [c!"ngxMgmtMainConf", c!"ngxConfTake1"], [c!"ngxStreamMainConf", c!"ngxStreamSrvConf", c!"ngxConfTake1"], [c!"ngxStreamUpsConf", c!"ngxConfTake1"]]),
    (c!"send_timeout", [[c!"ngxHTTPMainConf", c!"ngxHTTPSrvConf", c!"ngxHTTPLocConf", c!"ngxConfTake1"], [c!"ngxMgmtMainConf", c!"ngxConfTake1"]]),
    (c!"ssl", [[c!"ngxMgmtMainConf", c!"ngxConfFlag"]]),
    (c!"ssl_certificate", [[c!"ngxHTTPMainConf", c!"ngxHTTPSrvConf", c!"ngxConfTake1"], [c!"ngxMailMainConf", c!"ngxMailSrvConf", c!"ngxConfTake1"], [c!"ngxMgmtMainConf", c!"ngxConfTake1"], [c!"ngxStreamMainConf", c!"ngxStreamSrvConf", c!"ngxConfTake1"]]),
    (c!"ssl_certificate_key", [[c!"ngxHTTPMainConf", c!"ngxHTTPSrvConf", c!"ngxConfTake1"], [c!"ngxMailMainConf", c!"ngxMailSrvConf", c!"ngxConfTake1"], [c!"ngxMgmtMainConf", c!"ngxConfTake1"], [c!"ngxStreamMainConf", c!"ngxStreamSrvConf", c!"ngxConfTake1"]]),
    (c!"ssl_ciphers", [[c!"ngxHTTPMainConf", c!"ngxHTTPSrvConf", c!"ngxConfTake1"], [c!"ngxMailMainConf", c!"ngxMailSrvConf", c!"ngxConfTake1"], [c!"ngxMgmtMainConf", c!"ngxConfTake1"], [c!"ngxStreamMainConf", c!"ngxStreamSrvConf", c!"ngxConfTake1"]]),
    (c!"ssl_crl", [[c!"ngxHTTPMainConf", c!"ngxHTTPSrvConf", c!"ngxConfTake1"], [c!"ngxMailMainConf", c!"ngxMailSrvConf", c!"ngxConfTake1"], [c!"ngxMgmtMainConf", c!"ngxConfTake1"], [c!"ngxStreamMainConf", c!"ngxStreamSrvConf", c!"ngxConfTake1"], [c!"ngxHTTPOIDCConf", c!"ngxConfTake1"]]),
    (c!"ssl_name", [[c!"ngxMgmtMainConf", c!"ngxConfTake1"]]),
    (c!"ssl_password_file", [[c!"ngxHTTPMainConf", c!"ngxHTTPSrvConf", c!"ngxConfTake1"], [c!"ngxMailMainConf", c!"ngxMailSrvConf", c!"ngxConfTake1"], [c!"ngxMgmtMainConf", c!"ngxConfTake1"], [c!"ngxStreamMainConf", c!"ngxStreamSrvConf", c!"ngxConfTake1"]]),
    (c!"ssl_protocols", [[c!"ngxHTTPMainConf", c!"ngxHTTPSrvConf", c!"ngxConf1More"], [c!"ngxMailMainConf", c!"ngxMailSrvConf", c!"ngxConf1More"], [c!"ngxMgmtMainConf", c!"ngxConf1More"], [c!"ngxStreamMainConf", c!"ngxStreamSrvConf", c!"ngxConf1More"]]),
    (c!"ssl_server_name", [[c!"ngxMgmtMainConf", c!"ngxConfFlag"]]),
    (c!"ssl_trusted_certificate", [[c!"ngxHTTPMainConf", c!"ngxHTTPSrvConf", c!"ngxConfTake1"], [c!"ngxMailMainConf", c!"ngxMailSrvConf", c!"ngxConfTake1"], [c!"ngxMgmtMainConf", c!"ngxConfTake1"], [c!"ngxStreamMainConf", c!"ngxStreamSrvConf", c!"ngxConfTake1"], [c!"ngxHTTPOIDCConf", c!"ngxConfTake1"]]),
    (c!"ssl_verify", [[c!"ngxMgmtMainConf", c!"ngxConfFlag"]]),
    (c!"ssl_verify_depth", [[c!"ngxHTTPMainConf", c!"ngxHTTPSrvConf", c!"ngxConfTake1"], [c!"ngxMailMainConf", c!"ngxMailSrvConf", c!"ngxConfTake1"], [c!"ngxMgmtMainConf", c!"ngxConfTake1"], [c!"ngxStreamMainConf", c!"ngxStreamSrvConf", c!"ngxConfTake1"]]),
    (c!"usage_report", [[c!"ngxMgmtMainConf", c!"ngxConfNoArgs", c!"ngxConfTake12"]]),
    (c!"uuid_file", [[c!"ngxMgmtMainConf", c!"ngxConfNoArgs", c!"ngxConfTake1"]]),
    (c!"enforce_initial_report", [[c!"ngxMgmtMainConf", c!"ngxConfFlag"]]),
    (c!"license_token", [[c!"ngxMgmtMainConf", c!"ngxConfTake1"]]),
    (c!"state_path", [[c!"ngxMgmtMainConf", c!"ngxConfTake1"]]),
    (c!"zone_sync", [[c!"ngxStreamSrvConf", c!"ngxConfNoArgs"]]),
    (c!"proxy", [[c!"ngxMailMainConf", c!"ngxMailSrvConf", c!"ngxConfFlag"], [c!"ngxMgmtMainConf", c!"ngxConfTake1"]]),
    (c!"proxy_username", [[c!"ngxMgmtMainConf", c!"ngxConfTake1"]]),
    (c!"proxy_password", [[c!"ngxMgmtMainConf", c!"ngxConfTake1"]]),
    (c!"client_id", [[c!"ngxHTTPOIDCConf", c!"ngxConfTake1"]]),
    (c!"client_secret", [[c!"ngxHTTPOIDCConf", c!"ngxConfTake1"]]),
    (c!"issuer", [[c!"ngxHTTPOIDCConf", c!"ngxConfTake1"]]),
    (c!"config_url", [[c!"ngxHTTPOIDCConf", c!"ngxConfTake1"]]),
    (c!"cookie_name", [[c!"ngxHTTPOIDCConf", c!"ngxConfTake1"]]),
    (c!"extra_auth_args", [[c!"ngxHTTPOIDCConf", c!"ngxConfTake1"]]),
    (c!"redirect_uri", [[c!"ngxHTTPOIDCConf", c!"ngxConfTake1"]]),
    (c!"scope", [[c!"ngxHTTPOIDCConf", c!"ngxConfTake1"]]),
    (c!"session_store", [[c!"ngxHTTPOIDCConf", c!"ngxConfTake1"]]),
    (c!"session_timeout", [[c!"ngxHTTPOIDCConf", c!"ngxConfTake1"]]),
    (c!"logout_token_hint", [[c!"ngxHTTPOIDCConf", c!"ngxConfFlag"]]),
    (c!"logout_uri", [[c!"ngxHTTPOIDCConf", c!"ngxConfTake1"]]),
    (c!"post_logout_uri", [[c!"ngxHTTPOIDCConf", c!"ngxConfTake1"]]),
    (c!"userinfo", [[c!"ngxHTTPOIDCConf", c!"ngxConfTake1"]]),
    (c!"frontchannel_logout_uri", [[c!"ngxHTTPOIDCConf", c!"ngxConfTake1"]]),
    (c!"pkce", [[c!"ngxHTTPOIDCConf", c!"ngxConfFlag"]]),
    (c!"ssl_ocsp", [[c!"ngxHTTPMainConf", c!"ngxHTTPSrvConf", c!"ngxConfTake1"], [c!"ngxStreamMainConf", c!"ngxStreamSrvConf", c!"ngxConfTake1"]])]

/-- scripts/generate/configs/nplus_R37_config.json. -/
def config_nplus_R37 : TableConfig where
  path := "nplus_R37_config.json"
  table := nginxPlusR37Directives
  filter := [c!"epoll_events", c!"health_check_header", c!"body", c!"body_size", c!"http2_pool_size", c!"post_action", c!"pcre_buffer", c!"degrade", c!"gzip_window", c!"proxy_downstream_buffer", c!"degradation", c!"ssi_ignore_recycled_buffers", c!"uwsgi_string", c!"proxy_ssl_session_cache", c!"proxy_upstream_buffer", c!"eventport_events", c!"expect", c!"gzip_hash", c!"require", c!"proxy_keepalive", c!"http2_streams_index_size", c!"send", c!"kqueue_changes", c!"header", c!"devpoll_events", c!"kqueue_events", c!"postpone_gzipping", c!"acceptex_read", c!"iocp_threads", c!"devpoll_changes", c!"post_acceptex", c!"open_file_cache_events", c!"gzip_no_buffer", c!"deployment_context", c!"proxy_location", c!"ssl_verify_digests"]
  override := [
    (c!"if", [[c!"ngxHTTPSrvConf", c!"ngxHTTPLocConf", c!"ngxConfBlock", c!"ngxConfExpr", c!"ngxConf1More"]]),
    (c!"connect_timeout", [[c!"ngxMgmtMainConf", c!"ngxConfTake1"]]),
    (c!"read_timeout", [[c!"ngxMgmtMainConf", c!"ngxConfTake1"]]),
    (c!"resolver", [[c!"ngxHTTPMainConf", c!"ngxHTTPSrvConf", c!"ngxHTTPLocConf", c!"ngxConf1More"], [c!"ngxHTTPUpsConf", c!"ngxConf1More"], [c!"ngxMailMainConf", c!"ngxMailSrvConf", c!"ngxConf1More"], [c!"ngxMgmtMainConf", c!"ngxConf1More"], [c!"ngxStreamMainConf", c!"ngxStreamSrvConf", c!"ngxConf1More"], [c!"ngxStreamUpsConf", c!"ngxConf1More"]]),
    (c!"resolver_timeout", [[c!"ngxHTTPMainConf", c!"ngxHTTPSrvConf", c!"ngxHTTPLocConf", c!"ngxConfTake1"], [c!"ngxHTTPUpsConf", c!"ngxConfTake1"], [c!"ngxMailMainConf", c!"ngxMailSrvConf", c!"ngxConfTake1"], [c!"ngxMgmtMainConf", c!"ngxConfTake1"], [c!"ngxStreamMainConf", c!"ngxStreamSrvConf", c!"ngxConfTake1"], [c!"ngxStreamUpsConf", c!"ngxConfTake1"]]),
    (c!"send_timeout", [[c!"ngxHTTPMainConf", c!"ngxHTTPSrvConf", c!"ngxHTTPLocConf", c!"ngxConfTake1"], [c!"ngxMgmtMainConf", c!"ngxConfTake1"]]),
    (c!"ssl", [[c!"ngxMgmtMainConf", c!"ngxConfFlag"]]),
    (c!"ssl_certificate", [[c!"ngxHTTPMainConf", c!"ngxHTTPSrvConf", c!"ngxConfTake1"], [c!"ngxMailMainConf", c!"ngxMailSrvConf", c!"ngxConfTake1"], [c!"ngxMgmtMainConf", c!"ngxConfTake1"], [c!"ngxStreamMainConf", c!"ngxStreamSrvConf", c!"ngxConfTake1"]]),
    (c!"ssl_certificate_key", [[c!"ngxHTTPMainConf", c!"ngxHTTPSrvConf", c!"ngxConfTake1"], [c!"ngxMailMainConf", c!"ngxMailSrvConf", c!"ngxConfTake1"], [c!"ngxMgmtMainConf", c!"ngxConfTake1"], [c!"ngxStreamMainConf", c!"ngxStreamSrvConf", c!"ngxConfTake1"]]),
    (c!"ssl_ciphers", [[c!"ngxHTTPMainConf", c!"ngxHTTPSrvConf", c!"ngxConfTake1"], [c!"ngxMailMainConf", c!"ngxMailSrvConf", c!"ngxConfTake1"], [c!"ngxMgmtMainConf", c!"ngxConfTake1"], [c!"ngxStreamMainConf", c!"ngxStreamSrvConf", c!"ngxConfTake1"]]),
    (c!"ssl_crl", [[c!"ngxHTTPMainConf", c!"ngxHTTPSrvConf", c!"ngxConfTake1"], [c!"ngxMailMainConf", c!"ngxMailSrvConf", c!"ngxConfTake1"], [c!"ngxMgmtMainConf", c!"ngxConfTake1"], [c!"ngxStreamMainConf", c!"ngxStreamSrvConf", c!"ngxConfTake1"], [c!"ngxHTTPOIDCConf", c!"ngxConfTake1"]]),
    (c!"ssl_name", [[c!"ngxMgmtMainConf", c!"ngxConfTake1"]]),
    (c!"ssl_password_file", [[c!"ngxHTTPMainConf", c!"ngxHTTPSrvConf", c!"ngxConfTake1"], [c!"ngxMailMainConf", c!"ngxMailSrvConf", c!"ngxConfTake1"], [c!"ngxMgmtMainConf", c!"ngxConfTake1"], [c!"ngxStreamMainConf", c!"ngxStreamSrvConf", c!"ngxConfTake1"]]),
    (c!"ssl_protocols", [[c!"ngxHTTPMainConf", c!"ngxHTTPSrvConf", c!"ngxConf1More"], [c!"ngxMailMainConf", c!"ngxMailSrvConf", c!"ngxConf1More"], [c!"ngxMgmtMainConf", c!"ngxConf1More"], [c!"ngxStreamMainConf", c!"ngxStreamSrvConf", c!"ngxConf1More"]]),
    (c!"ssl_server_name", [[c!"ngxMgmtMainConf", c!"ngxConfFlag"]]),
    (c!"ssl_trusted_certificate", [[c!"ngxHTTPMainConf", c!"ngxHTTPSrvConf", c!"ngxConfTake1"], [c!"ngxMailMainConf", c!"ngxMailSrvConf", c!"ngxConfTake1"], [c!"ngxMgmtMainConf", c!"ngxConfTake1"], [c!"ngxStreamMainConf", c!"ngxStreamSrvConf", c!"ngxConfTake1"], [c!"ngxHTTPOIDCConf", c!"ngxConfTake1"]]),
    (c!"ssl_verify", [[c!"ngxMgmtMainConf", c!"ngxConfFlag"]]),
    (c!"ssl_verify_depth", [[c!"ngxHTTPMainConf", c!"ngxHTTPSrvConf", c!"ngxConfTake1"], [c!"ngxMailMainConf", c!"ngxMailSrvConf", c!"ngxConfTake1"], [c!"ngxMgmtMainConf", c!"ngxConfTake1"], [c!"ngxStreamMainConf", c!"ngxStreamSrvConf", c!"ngxConfTake1"]]),
    (c!"usage_report", [[c!"ngxMgmtMainConf", c!"ngxConfNoArgs", c!"ngxConfTake12"]]),
    (c!"uuid_file", [[c!"ngxMgmtMainConf", c!"ngxConfNoArgs", c!"ngxConfTake1"]]),
    (c!"enforce_initial_report", [[c!"ngxMgmtMainConf", c!"ngxConfFlag"]]),
    (c!"license_token", [[c!"ngxMgmtMainConf", c!"ngxConfTake1"]]),
    (c!"state_path", [[c!"ngxMgmtMainConf", c!"ngxConfTake1"]]),
    (c!"zone_sync", [[c!"ngxStreamSrvConf", c!"ngxConfNoArgs"]]),
    (c!"proxy", [[c!"ngxMailMainConf", c!"ngxMailSrvConf", c!"ngxConfFlag"], [c!"ngxMgmtMainConf", c!"ngxConfTake1"]]),
    (c!"proxy_username", [[c!"ngxMgmtMainConf", c!"ngxConfTake1"]]),
    (c!"proxy_password", [[c!"ngxMgmtMainConf", c!"ngxConfTake1"]]),
    (c!"client_id", [[c!"ngxHTTPOIDCConf", c!"ngxConfTake1"]]),
    (c!"client_secret", [[c!"ngxHTTPOIDCConf", c!"ngxConfTake1"]]),
    (c!"issuer", [[c!"ngxHTTPOIDCConf", c!"ngxConfTake1"]]),
    (c!"config_url", [[c!"ngxHTTPOIDCConf", c!"ngxConfTake1"]]),
    (c!"cookie_name", [[c!"ngxHTTPOIDCConf", c!"ngxConfTake1"]]),
    (c!"extra_auth_args", [[c!"ngxHTTPOIDCConf", c!"ngxConfTake1"]]),
    (c!"redirect_uri", [[c!"ngxHTTPOIDCConf", c!"ngxConfTake1"]]),
    (c!"scope", [[c!"ngxHTTPOIDCConf", c!"ngxConfTake1"]]),
    (c!"session_store", [[c!"ngxHTTPOIDCConf", c!"ngxConfTake1"]]),
    (c!"session_timeout", [[c!"ngxHTTPOIDCConf", c!"ngxConfTake1"]]),
    (c!"logout_token_hint", [[c!"ngxHTTPOIDCConf", c!"ngxConfFlag"]]),
    (c!"logout_uri", [[c!"ngxHTTPOIDCConf", c!"ngxConfTake1"]]),
    (c!"post_logout_uri", [[c!"ngxHTTPOIDCConf", c!"ngxConfTake1"]]),
    (c!"userinfo", [[c!"ngxHTTPOIDCConf", c!"ngxConfTake1"]]),
    (c!"frontchannel_logout_uri", [[c!"ngxHTTPOIDCConf", c!"ngxConfTake1"]]),
    (c!"pkce", [[c!"ngxHTTPOIDCConf", c!"ngxConfFlag"]]),
    (c!"ssl_ocsp", [[c!"ngxHTTPMainConf", c!"ngxHTTPSrvConf", c!"ngxConfTake1"], [c!"ngxStreamMainConf", c!"ngxStreamSrvConf", c!"ngxConfTake1"]])]

/-- scripts/generate/configs/nplus_latest_config.json. -/
def config_nplus_latest : TableConfig where
  path := "nplus_latest_config.json"
  table := nginxPlusLatestDirectives
  filter := [c!"epoll_events", c!"health_check_header", c!"body", c!"body_size", c!"http2_pool_size", c!"post_action", c!"pcre_buffer", c!"degrade", c!"gzip_window", c!"proxy_downstream_buffer", c!"degradation", c!"ssi_ignore_recycled_buffers", c!"uwsgi_string", c!"proxy_ssl_session_cache", c!"proxy_upstream_buffer", c!"eventport_events", c!"expect", c!"gzip_hash", c!"require", c!"proxy_keepalive", c!"http2_streams_index_size", c!"send", c!"kqueue_changes", c!"header", c!"devpoll_events", c!"kqueue_events", c!"postpone_gzipping", c!"acceptex_read", c!"iocp_threads", c!"devpoll_changes", c!"post_acceptex", c!"open_file_cache_events", c!"gzip_no_buffer", c!"deployment_context", c!"proxy_location", c!"ssl_verify_digests"]
  override := [
    (c!"if", [[c!"ngxHTTPSrvConf", c!"ngxHTTPLocConf", c!"ngxConfBlock", c!"ngxConfExpr", c!"ngxConf1More"]]),
    (c!"connect_timeout", [[c!"ngxMgmtMainConf", c!"ngxConfTake1"]]),
    (c!"read_timeout", [[c!"ngxMgmtMainConf", c!"ngxConfTake1"]]),
    (c!"resolver", [[c!"ngxHTTPMainConf", c!"ngxHTTPSrvConf", c!"ngxHTTPLocConf", c!"ngxConf1More"], [c!"ngxHTTPUpsConf", c!"ngxConf1More"], [c!"ngxMailMainConf", c!"ngxMailSrvConf", c!"ngxConf1More"], [c!"ngxMgmtMainConf", c!"ngxConf1More"], [c!"ngxStreamMainConf", c!"ngxStreamSrvConf", c!"ngxConf1More"], [c!"ngxStreamUpsConf", c!"ngxConf1More"]]),
    (c!"resolver_timeout", [[c!"ngxHTTPMainConf", c!"ngxHTTPSrvConf", c!"ngxHTTPLocConf", c!"ngxConfTake1"], [c!"ngxHTTPUpsConf", c!"ngxConfTake1"], [c!"ngxMailMainConf", c!"ngxMailSrvConf", c!"ngxConfTake1"], [c!"ngxMgmtMainConf", c!"ngxConfTake1"], [c!"ngxStreamMainConf", c!"ngxStreamSrvConf", c!"ngxConfTake1"], [c!"ngxStreamUpsConf", c!"ngxConfTake1"]]),
    (c!"send_timeout", [[c!"ngxHTTPMainConf", c!"ngxHTTPSrvConf", c!"ngxHTTPLocConf", c!"ngxConfTake1"], [c!"ngxMgmtMainConf", c!"ngxConfTake1"]]),
    (c!"ssl", [[c!"ngxMgmtMainConf", c!"ngxConfFlag"]]),
    (c!"ssl_certificate", [[c!"ngxHTTPMainConf", c!"ngxHTTPSrvConf", c!"ngxConfTake1"], [c!"ngxMailMainConf", c!"ngxMailSrvConf", c!"ngxConfTake1"], [c!"ngxMgmtMainConf", c!"ngxConfTake1"], [c!"ngxStreamMainConf", c!"ngxStreamSrvConf", c!"ngxConfTake1"]]),
    (c!"ssl_certificate_key", [[c!"ngxHTTPMainConf", c!"ngxHTTPSrvConf", c!"ngxConfTake1"], [c!"ngxMailMainConf", c!"ngxMailSrvConf", c!"ngxConfTake1"], [c!"ngxMgmtMainConf", c!"ngxConfTake1"], [c!"ngxStreamMainConf", c!"ngxStreamSrvConf", c!"ngxConfTake1"]]),
    (c!"ssl_ciphers", [[c!"ngxHTTPMainConf", c!"ngxHTTPSrvConf", c!"ngxConfTake1"], [c!"ngxMailMainConf", c!"ngxMailSrvConf", c!"ngxConfTake1"], [c!"ngxMgmtMainConf", c!"ngxConfTake1"], [c!"ngxStreamMainConf", c!"ngxStreamSrvConf", c!"ngxConfTake1"]]),
    (c!"ssl_crl", [[c!"ngxHTTPMainConf", c!"ngxHTTPSrvConf", c!"ngxConfTake1"], [c!"ngxMailMainConf", c!"ngxMailSrvConf", c!"ngxConfTake1"], [c!"ngxMgmtMainConf", c!"ngxConfTake1"], [c!"ngxStreamMainConf", c!"ngxStreamSrvConf", c!"ngxConfTake1"], [c!"ngxHTTPOIDCConf", c!"ngxConfTake1"]]),
    (c!"ssl_name", [[c!"ngxMgmtMainConf", c!"ngxConfTake1"]]),
    (c!"ssl_password_file", [[c!"ngxHTTPMainConf", c!"ngxHTTPSrvConf", c!"ngxConfTake1"], [c!"ngxMailMainConf", c!"ngxMailSrvConf", c!"ngxConfTake1"], [c!"ngxMgmtMainConf", c!"ngxConfTake1"], [c!"ngxStreamMainConf", c!"ngxStreamSrvConf", c!"ngxConfTake1"]]),
    (c!"ssl_protocols", [[c!"ngxHTTPMainConf", c!"ngxHTTPSrvConf", c!"ngxConf1More"], [c!"ngxMailMainConf", c!"ngxMailSrvConf", c!"ngxConf1More"], [c!"ngxMgmtMainConf", c!"ngxConf1More"], [c!"ngxStreamMainConf", c!"ngxStreamSrvConf", c!"ngxConf1More"]]),
    (c!"ssl_server_name", [[c!"ngxMgmtMainConf", c!"ngxConfFlag"]]),
    (c!"ssl_trusted_certificate", [[c!"ngxHTTPMainConf", c!"ngxHTTPSrvConf", c!"ngxConfTake1"], [c!"ngxMailMainConf", c!"ngxMailSrvConf", c!"ngxConfTake1"], [c!"ngxMgmtMainConf", c!"ngxConfTake1"], [c!"ngxStreamMainConf", c!"ngxStreamSrvConf", c!"ngxConfTake1"], [c!"ngxHTTPOIDCConf", c!"ngxConfTake1"]]),
    (c!"ssl_verify", [[c!"ngxMgmtMainConf", c!"ngxConfFlag"]]),
    (c!"ssl_verify_depth", [[c!"ngxHTTPMainConf", c!"ngxHTTPSrvConf", c!"ngxConfTake1"], [c!"ngxMailMainConf", c!"ngxMailSrvConf", c!"ngxConfTake1"], [c!"ngxMgmtMainConf", c!"ngxConfTake1"], [c!"ngxStreamMainConf", c!"ngxStreamSrvConf", c!"ngxConfTake1"]]),
    (c!"usage_report", [[c!"ngxMgmtMainConf", c!"ngxConfNoArgs", c!"ngxConfTake12"]]),
    (c!"uuid_file", [[c!"ngxMgmtMainConf", c!"ngxConfNoArgs", c!"ngxConfTake1"]]),
    (c!"enforce_initial_report", [[c!"ngxMgmtMainConf", c!"ngxConfFlag"]]),
    (c!"license_token", [[c!"ngxMgmtMainConf", c!"ngxConfTake1"]]),
    (c!"state_path", [[c!"ngxMgmtMainConf", c!"ngxConfTake1"]]),
    (c!"zone_sync", [[c!"ngxStreamSrvConf", c!"ngxConfNoArgs"]]),
    (c!"proxy", [[c!"ngxMailMainConf", c!"ngxMailSrvConf", c!"ngxConfFlag"], [c!"ngxMgmtMainConf", c!"ngxConfTake1"]]),
    (c!"proxy_username", [[c!"ngxMgmtMainConf", c!"ngxConfTake1"]]),
    (c!"proxy_password", [[c!"ngxMgmtMainConf", c!"ngxConfTake1"]]),
    (c!"client_id", [[c!"ngxHTTPOIDCConf", c!"ngxConfTake1"]]),
    (c!"client_secret", [[c!"ngxHTTPOIDCConf", c!"ngxConfTake1"]]),
    (c!"issuer", [[c!"ngxHTTPOIDCConf", c!"ngxConfTake1"]]),
    (c!"config_url", [[c!"ngxHTTPOIDCConf", c!"ngxConfTake1"]]),
    (c!"cookie_name", [[c!"ngxHTTPOIDCConf", c!"ngxConfTake1"]]),
    (c!"extra_auth_args", [[c!"ngxHTTPOIDCConf", c!"ngxConfTake1"]]),
    (c!"redirect_uri", [[c!"ngxHTTPOIDCConf", c!"ngxConfTake1"]]),
    (c!"scope", [[c!"ngxHTTPOIDCConf", c!"ngxConfTake1"]]),
    (c!"session_store", [[c!"ngxHTTPOIDCConf", c!"ngxConfTake1"]]),
    (c!"session_timeout", [[c!"ngxHTTPOIDCConf", c!"ngxConfTake1"]]),
    (c!"logout_token_hint", [[c!"ngxHTTPOIDCConf", c!"ngxConfFlag"]]),
    (c!"logout_uri", [[c!"ngxHTTPOIDCConf", c!"ngxConfTake1"]]),
    (c!"post_logout_uri", [[c!"ngxHTTPOIDCConf", c!"ngxConfTake1"]]),
    (c!"userinfo", [[c!"ngxHTTPOIDCConf", c!"ngxConfTake1"]]),
    (c!"frontchannel_logout_uri", [[c!"ngxHTTPOIDCConf", c!"ngxConfTake1"]]),
    (c!"pkce", [[c!"ngxHTTPOIDCConf", c!"ngxConfFlag"]]),
    (c!"ssl_ocsp", [[c!"ngxHTTPMainConf", c!"ngxHTTPSrvConf", c!"ngxConfTake1"], [c!"ngxStreamMainConf", c!"ngxStreamSrvConf", c!"ngxConfTake1"]])]

/-- scripts/generate/configs/oss_124_config.json. -/
def config_oss_124 : TableConfig where
  path := "oss_124_config.json"
  table := oss124Directives
  filter := [c!"epoll_events", c!"health_check_header", c!"body", c!"body_size", c!"proxy", c!"http2_pool_size", c!"post_action", c!"pcre_buffer", c!"degrade", c!"gzip_window", c!"proxy_downstream_buffer", c!"degradation", c!"ssi_ignore_recycled_buffers", c!"uwsgi_string", c!"proxy_ssl_session_cache", c!"proxy_upstream_buffer", c!"eventport_events", c!"expect", c!"gzip_hash", c!"require", c!"proxy_keepalive", c!"http2_streams_index_size", c!"send", c!"kqueue_changes", c!"header", c!"devpoll_events", c!"kqueue_events", c!"postpone_gzipping", c!"acceptex_read", c!"iocp_threads", c!"devpoll_changes", c!"post_acceptex", c!"open_file_cache_events", c!"gzip_no_buffer"]
  override := [
    (c!"if", [[c!"ngxHTTPSrvConf", c!"ngxHTTPLocConf", c!"ngxConfBlock", c!"ngxConfExpr", c!"ngxConf1More"]]),
    (c!"ssl_ocsp", [[c!"ngxHTTPMainConf", c!"ngxHTTPSrvConf", c!"ngxConfTake1"]])]

/-- scripts/generate/configs/oss_126_config.json. -/
def config_oss_126 : TableConfig where
  path := "oss_126_config.json"
  table := oss126Directives
  filter := [c!"epoll_events", c!"health_check_header", c!"body", c!"body_size", c!"proxy", c!"http2_pool_size", c!"post_action", c!"pcre_buffer", c!"degrade", c!"gzip_window", c!"proxy_downstream_buffer", c!"degradation", c!"ssi_ignore_recycled_buffers", c!"uwsgi_string", c!"proxy_ssl_session_cache", c!"proxy_upstream_buffer", c!"eventport_events", c!"expect", c!"gzip_hash", c!"require", c!"proxy_keepalive", c!"http2_streams_index_size", c!"send", c!"kqueue_changes", c!"header", c!"devpoll_events", c!"kqueue_events", c!"postpone_gzipping", c!"acceptex_read", c!"iocp_threads", c!"devpoll_changes", c!"post_acceptex", c!"open_file_cache_events", c!"gzip_no_buffer"]
  override := [
    (c!"if", [[c!"ngxHTTPSrvConf", c!"ngxHTTPLocConf", c!"ngxConfBlock", c!"ngxConfExpr", c!"ngxConf1More"]]),
    (c!"ssl_ocsp", [[c!"ngxHTTPMainConf", c!"ngxHTTPSrvConf", c!"ngxConfTake1"]])]

/-- scripts/generate/configs/oss_latest_config.json. -/
def config_oss_latest : TableConfig where
  path := "oss_latest_config.json"
  table := ossLatestDirectives
  filter := [c!"epoll_events", c!"health_check_header", c!"body", c!"body_size", c!"proxy", c!"http2_pool_size", c!"post_action", c!"pcre_buffer", c!"degrade", c!"gzip_window", c!"proxy_downstream_buffer", c!"degradation", c!"ssi_ignore_recycled_buffers", c!"uwsgi_string", c!"proxy_ssl_session_cache", c!"proxy_upstream_buffer", c!"eventport_events", c!"expect", c!"gzip_hash", c!"require", c!"proxy_keepalive", c!"http2_streams_index_size", c!"send", c!"kqueue_changes", c!"header", c!"devpoll_events", c!"kqueue_events", c!"postpone_gzipping", c!"acceptex_read", c!"iocp_threads", c!"devpoll_changes", c!"post_acceptex", c!"open_file_cache_events", c!"gzip_no_buffer"]
  override := [
    (c!"if", [[c!"ngxHTTPSrvConf", c!"ngxHTTPLocConf", c!"ngxConfBlock", c!"ngxConfExpr", c!"ngxConf1More"]])]

/-- scripts/generate/configs/otel_config.json. -/
def config_otel : TableConfig where
  path := "otel_config.json"
  table := otelDirectives
  filter := [c!"endpoint", c!"interval", c!"batch_size", c!"batch_count"]

/-- All configurations. -/
def tableConfigs : List TableConfig := [
  config_geoip2, config_headersmore, config_lua, config_nap_v4, config_nap_v5, config_njs, config_nplus_R33, config_nplus_R34, config_nplus_R35, config_nplus_R36, config_nplus_R37, config_nplus_latest, config_oss_124, config_oss_126, config_oss_latest, config_otel]

end Verif
